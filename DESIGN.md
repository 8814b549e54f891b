# Formal model of cw-ica-controller: design

The deliverables: `properties.jsonl` (the claims in English), `MANIFEST.json` (which theorem proves which claim),
`lean/` (model, specifications, proofs), `seeded/LOG.jsonl` (wrong programs the theorems were tested against),
`tools/` (generators, see section 5).

## 1. What is modelled, and how

The contract (`/repo/src`, default features `export`, `staking`, `query`), its derive macro (`/repo/derive`) and the two
contracts that receive its callbacks (`/repo/testing/contracts`) are modelled function by function as total, computable
Lean 4 functions. Every definition cites the file and lines it models.

### 1.1 Layers (all under `lean/Verif/`)

| layer | modules | contents |
|---|---|---|
| basics | `Basic`, `Dec` | result type `Res` (`ok`, `err`, `panic`: Rust aborts are explicit values), byte strings, UTF-8, decimal texts, `Decimal` |
| formats | `Base64`, `Hex`, `Json`, `JsonCodec`, `Wire` | base64, hexadecimal, JSON tree with printer and parser, serde-like typed codecs, protobuf wire format |
| types | `Model/Types`, `Model/TypesJson`, `Model/Proto` | every Rust type the contract reads, writes or converts, its JSON codec, and the protobuf messages (generated from tables by `tools/gen.py`) |
| contract | `Model/Store`, `Semver`, `Metadata`, `CosmosMsg`, `QueryMsg`, `Packet`, `Contract`, `Entry` | storage, ownership, version comparison, channel proposal, message and query conversion, packets, callbacks, events, all entry points |
| storage bytes | `Model/RawStore` | the same entry points on a raw key-value store of bytes, as the VM runs them |
| clients | `Model/Helpers`, `Model/Library`, `Model/Receivers`, `Model/RawOwner` | helper API, library builds, callback macro, builds without the `query` feature, callback-counter, cw-ica-owner (typed, and on raw storage with its queries) |
| chain | `Model/World`, `Model/RawWorld`, `Model/Tx` | wasmd and ibc-go core around one contract: channels, sequences, commitments, submessages and replies, rollback, re-entrant callbacks |
| specifications | `Spec/*` | independent statements: what a user observes (`Observe`), how the host reads a packet (`Host`) and answers (`Answer`), the proposal as the chain reads it (`Proposal`), semver.org (`Semver`), wasmd addresses (`Wasm`), the public formats (`Formats`), the JSON interface (`Api`), when bytes in storage stand for values (`RawStore`), the owner contract on a chain (`OwnerWorld`), the owner contract together with all its controllers (`System`), its JSON interface and that of callback-counter (`OwnerApi`), the JSON of callbacks and stored values as read (`ApiStored`), the owner contract on raw storage and text (`RawOwnerWorld`), the chain together with the host chains (`Interchain`), the owner contract and its controllers together with the host chains (`OwnerNet`), when a packet comes to an end (`Settle`), the host's rule of one active channel (`Reopen`), which transactions are accepted (`Admission`), which events wasmd accepts (`Events`), the contract in bytes together with the host chains (`RawInterchain`) |
| helper lemmas | `*Facts`, `Facts/*` | success conditions of handlers, invariants, refinements, codec laws |
| properties | `Props/*` | the theorems named `Cnn_…`, each with concrete `example`s; `Props/Scenario` and `Props/Answers` hold the concrete histories |

### 1.2 The world

`World` holds the contract's storage and the chain's view of the contract's port (channels with their handshake state, next
sequences, packet commitments, block height and time). An operation (`Op`) is a message somebody submits: instantiate,
execute by any sender, migrate, any of the IBC messages by any relayer, or a new block. `apply` runs the matching entry
point, then the messages the contract returned (decoding their bytes as the chain does), the reply, and commits, or rolls
everything back if anything failed. Core's own checks that depend on things outside the model (light clients, existence of
connections, gas) are an arbitrary Boolean of the operation. A *history* is any list of committed operations; theorems
quantify over all of them.

Callbacks: `applyWith callee` runs an arbitrary called contract at the place where the message is dispatched;
`Facts/Callee.lean` proves that calls happen after everything else an operation does, so that it suffices to consider
`apply` followed by the callee. `Tx` is a tree in which the callee fails or performs any list of nested transactions, which
may call the contract again; `Tx` histories are proved to linearise to `Op` histories.

Bytes: `Model/RawWorld` is the same transition system with raw storage and JSON text as messages. C58 proves that its
histories are exactly the histories of `World`; C69/C70 prove what the JSON means.

Host chains: `Spec/Interchain` joins `World` with the other ends of its channels: for each connection an ICS-27 host with
its account, channels, acknowledgements, block, and a log of the packets it executed. Relayers and hosts act in any order;
hosts may fail any packet, and close nothing by themselves. A message of a relayer is accepted only if light clients can
show what it claims; on ordered channels acknowledgements are taken in the order of the sequence numbers, as by the
channel keeper. C81–C86 are about histories of this joint system; every other theorem about `World` leaves the hosts
arbitrary (any bytes in acknowledgements, any version in OpenAck). `Spec/OwnerNet` does the same for the owner contract
with all its controllers: each controller has hosts of its own (C89). `Spec/RawInterchain` is the joint system with the
contract on raw storage and JSON text; C95 proves that it has the same histories. `Spec/OwnerSettle` says when a step
of relayers or hosts is for a given controller of the owner contract (C96). `Spec/Use` says what it means that a request is
read, carried out and answered (C97). `Spec/Forward` says which differences between two protobuf answers a reader of a given
version must not notice (C98). `Spec/GoClient` says which message a value of the Go client stands for (C100). `Spec/Funds`
keeps the tokens of a contract (C101). `Spec/OwnerUse` is `Spec/Use` for the actions of the admin (C102).
`Spec/GoAnswers` says which answer a value read by the Go client stands for (C103). `Spec/Machine` describes the whole contract as a machine without storage or code (C111), `Spec/OwnerMachine` the owner contract (C112). `Spec/Refusal` lists, for each call, what can be wrong with it and what is then said (C113). `Spec/OwnerRefusal` does so for the owner contract (C115). `Spec/Stored` lists the keys that a history leaves in the storage (C114). `Spec/StoredAs` and `Spec/OwnerStored` list what stands under each key of the contract (C117) and of the owner contract (C116). `Spec/Schedule` says when one history is another with the outcomes of packets moved about (C118), `Spec/Isolation` which controller a transaction concerns (C119). `Spec/Footprint` says what it means that a call depends on some keys of the storage and changes some (C120). `Spec/Accounts` has plans of the owner to use several accounts (C121). `Spec/Upgrade` says what a contract looks like that an earlier version has left (C122). `Spec/Writing` says when two storages mean the same values in other words (C123). `Spec/Script` writes down what is expected of a script of the kind the end-to-end tests play, scene by scene, and `Spec/Displays` what it means that the contract, the chains and the counter show it (C124). `Spec/Retry` says what it is to try again patiently (C126). `Spec/InterchainTx` lets callback contracts run in the joint system (C127). `Spec/Readme` has the message the README prints (C128). `Spec/Reading` says what any byte
string says as the answer to a query, from the published `.proto` files (C109). `Spec/Paging` gives hosts books from which they
answer queries for lists, a page at a time (C104–C106).

### 1.3 How the theorems are kept independent of the model

* Encodings are stated against `Spec/Host`, `Spec/Answer`, `Spec/Proposal` (field numbers from the SDK, ibc-go and wasmd
  `.proto` files), `Spec/Formats` (protobuf rules on bits, RFC 8259 grammar, RFC 4648 on bits) and `Spec/Api` (names and
  shapes of JSON members). None of these uses an encoder or decoder of the model; a bug made consistently in an encoder and
  its decoder breaks them. (C27–C29, C38–C40, C66–C70.)
* Behaviour is stated with the observers of `Spec/Observe` and quantifies over histories of committed operations.
* "Ghost" data (last options, last callback address, nominations, pending packets) is defined on the history, not on the
  storage.

### 1.4 Simplifications (also in the comments of the definitions)

* Error values keep the constructor of `ContractError`, not always the text of third-party errors. No claim depends on texts.
* `addr_validate` is an arbitrary predicate of the environment; on success it returns its input, as in CosmWasm.
* `char::is_alphanumeric` is exact on ASCII and an arbitrary predicate elsewhere (the Unicode tables).
* JSON numbers: only natural numbers (no type of the contract reads others; other numbers are refused by the model and by
  serde for these types). serde-json-wasm's recursion limit (128) is not modelled: no type the contracts
  read is recursive, their nesting is far below it, and ignored members are skipped without recursion.
* Protobuf: unknown records, groups included, are skipped as by prost. prost allows 100 levels of messages and groups
  counted from the outermost message; the model allows 100 levels of groups in every message. Lengths are below 2^64.
* `sha256` and the bech32 codec are arbitrary functions (C55); codes on the chain are never changed.
* Raw storage: C58 assumes channel ids of at most 65535 bytes (cw-storage-plus aborts beyond; ibc-go allows 64).
* Gas, wasm memory limits and the size limits of wasmd are not modelled.
* wasmd turns contract events into chain events by adding the prefix `wasm-` and the contract address and refuses empty or
  reserved attributes; this is not part of the model (events are those the contract returns); C93 says which events would be
  refused.
* The called callback contract is arbitrary in the theorems over `World`; in `Spec/OwnerWorld` the called contracts only
  accept or refuse; in `Spec/System` they are the modelled controllers.
* `Spec/System`: the owner contract is deployed with the code id of the controller, is not migrated (it has no `migrate`),
  and does not migrate its controllers (it has no such message).
* The `query` feature: the feature `export`, which the entry points need, switches `query` and `staking` on, so a contract
  without them cannot be built. Crates that use this one as a library can be built without; what they exchange with the
  contract (C62, C78, C80) and what they build and read (`Model/Library`, C87, C88) is modelled.
* JSON members that a reader ignores must be JSON in the model; serde-json-wasm skips some texts that are not
  (`deserialize_ignored_any` looks for the next `,` or closing bracket). The model refuses these texts. Members are ignored
  in the `cosmwasm_std` types, in `ChannelOpenInitOptions` and in `ContractState` (all other types deny unknown members).
  wasmd passes only valid JSON to contracts (`RawContractMessage.ValidateBasic`), and what is in the storage was written by
  a serializer, so such a text never reaches the contract.
* Protobuf messages have all fields of the `.proto` files of Cosmos SDK 0.47 and wasmd (`Model/Proto`), so that a malformed
  field fails the decoding also where the contract does not read it, as in prost. Fields 12 and 13 of `Validator` are
  skipped unread by builds against an older SDK; the difference shows only on malformed values of these two.
* `ica_callback_execute`: enums whose variants hold data (unit variants under `cw_serde` are written as strings and are not
  affected by the macro).

### 1.5 What is and is not modelled, file by file

| file | modelled | not modelled |
|---|---|---|
| `src/contract.rs` | all entry points, `execute`, `query`, `migrate`, `reply` modules (`Model/Contract`, `Model/RawStore`, `Model/Entry`) | unit tests (run on the model in `Verif/UnitTests`) |
| `src/ibc/handshake.rs` | all (`Model/Contract`) | |
| `src/ibc/relay.rs` | all (`Model/Contract`) | |
| `src/ibc/types/metadata.rs` | all (`Model/Metadata`) | unit tests (run on the model in `Verif/UnitTests`) |
| `src/ibc/types/packet.rs` | all, in all feature sets (`Model/Packet`, `Model/Library`) | unit tests (run on the model in `Verif/UnitTests`) |
| `src/ibc/types/stargate.rs` | `new_ica_channel_open_init_cosmos_msg` (`Model/Metadata`) | |
| `src/ibc/types/events.rs`, `keys.rs` | all (`Model/Packet`, `Model/Metadata`) | |
| `src/types/state.rs`, `keys.rs`, `msg.rs`, `callbacks.rs`, `error.rs` | all types, storage keys, `ContractState` methods; constructors and texts of errors (`Model/Types*`, `Model/Store`, `Model/RawStore`, `errText` in `Model/QueryMsg`) | the texts of errors of dependencies (named by kind); schema derives |
| `src/types/cosmos_msg.rs` | all conversions, with and without `staking` (`Model/CosmosMsg`, `Model/Library`) | |
| `src/types/query_msg.rs` | all (`Model/QueryMsg`) | |
| `src/helpers.rs` | all (`Model/Helpers`) | |
| `src/bin/schema.rs`, `src/lib.rs` | | schema generation |
| `derive/src/lib.rs` | `merge_variants`, `ica_callback_execute` on enums (`Model/Receivers`) | token-level details |
| `testing/contracts/callback-counter` | all (`Model/Receivers`) | |
| `testing/contracts/cw-ica-owner` | all (`Model/Receivers`, `Model/RawOwner`) | |
| `e2e/interchaintestv8/types` | the message types of `cwicacontroller` and `cwicaowner`, `toString`, the helpers that build messages, the query clients of `cwicacontroller`, `cwicaowner` and `callbackcounter` with the types they read (`Model/GoController`, `Model/GoOwner`, `Model/GoClient`, `Model/GoAnswers`, `Model/GoReader`) | transport, `simplecounter` |
| other parts of `e2e/`, `docs/` | | Go tests, documentation |

The dependencies (cosmwasm-std 2.1.3, cw-ownable 2.0.0, cw2 2.0.0, cw-storage-plus 2.0.0, semver 1.0.23, serde-json-wasm
1.0.1, prost 0.13.1, cosmos-sdk-proto, ibc-proto, anybuf 0.5.0) are not in `/repo`; what the contract uses of them is modelled
from their documented behaviour.

## 2. Trusted base

* Lean 4.33.0's kernel. The axioms used are at most `propext`, `Classical.choice`, `Quot.sound`, for every theorem (checked by
  `vcheck`). No `sorry`, `admit`, `native_decide`, `bv_decide`, no own axioms.
* That the definitions under `Model/` say what the Rust says, and what its dependencies do.
* That `World`, `RawWorld`, `Tx` describe cosmwasm-vm, wasmd and ibc-go: in particular that OpenAck, acknowledgement and
  timeout change the chain's state before the contract's callback runs, that CloseInit changes it after, that a packet is
  acknowledged or timed out only while committed and that each commitment is deleted when it is, that messages a contract
  returns are executed in order and atomically with the call, and that only the contract itself signs as the contract.
* For C81–C86, C89–C91, C93–C97, C99, C102, C104–C107, C110, C119 and C121 only: that host chains behave as `Spec/Interchain` says (one account per connection and port, ibc-go's checks
  on receiving a packet, all messages of a packet or none, one acknowledgement for each packet, kept for ever), that the channel keeper takes acknowledgements of ordered channels in turn, and that
  light clients are right; for C91 and C121 also that hosts keep ibc-go's rule of one active channel (`Spec/Reopen`). Signers are checked for the message types `Spec/Host` knows; other types are the owner's affair.
* That `Spec/*` says what the public documents say. `Spec/Host` reads `data` of the packet JSON as an array of numbers, which
  is what the contract writes; Go's `encoding/json` accepts this for `[]byte`.
* For C104–C106 only: that hosts page lists as `Spec/Paging` says (`types/query` of the Cosmos SDK: a hundred entries unless a limit is
  given, the key of the next entry or an empty one, all validators if no status is named).
* For C100 and C103 only: that Go's `encoding/json` writes and reads as `Model/GoClient` and `Model/GoReader` say (tags, `omitempty`,
  pointers, `null`, unknown fields, range of `int`, keys matched without regard to case).

## 3. Findings: properties that are false of the code

Each is recorded as a theorem with a concrete reachable history, next to a `_partial` theorem saying what does hold.

1. **C18, C32** A timeout of a packet of an *older* channel marks the tracked open ordered channel closed, although it is open
   on the chain (`C18_other_channels_timeout_closes`); packets can still be sent on the channel the contract reports closed
   (`C32_packet_on_reported_closed`). `ibc_packet_timeout` does not compare the packet's channel with the tracked one.
2. **C35** An error acknowledgement does not remove the packet's pending query record (`C35_error_ack_leaks`).
3. **C37** An error acknowledgement always carries a `query_result`, even for packets without queries (`C37_error_ack_reports`).
4. **C24** Two overlapping handshakes give two open channels (`C24_two_open_channels`): only the channel state recorded at
   OpenAck blocks a new handshake.
5. **C32** `ica_info` survives the closing of the channel, so the contract accepts sends afterwards and only the chain
   refuses (`C32_contract_accepts_after_close`).
6. **C56** ICA addresses with non-ASCII letters are accepted (`C56_non_ascii_accepted`): `char::is_alphanumeric` is Unicode.
7. **C57** OpenAck does not check the host connection id (`C57_host_connection_unchecked`). With a conforming host the
   metadata names the host's own connection all the same (`C81_host_connection`).
8. **C40** Validator commission rates are reported 10^18 times too large (`C40_wrong_rates`): the protobuf text of a
   `LegacyDec` has no decimal point and is parsed as a whole number.

9. **C73, C75** The owner contract ignores callbacks other than the one at OpenAck, so its registry shows a closed channel as
   open for ever (`C73_stale_after_close`); and it has no call that lets a controller create a new channel, so an account
   whose channel has closed is lost (`C75_closed_for_ever`).

10. **C91** Overlapping handshakes (finding 4) can lock the interchain account for ever (`C91_can_be_locked`). ibc-go hosts remember
   the channel whose handshake they completed last and refuse new handshakes until it is closed. If two handshakes overlap and
   the host completes them in the other order than the controller, `close_channel` closes the channel the contract tracks while
   the host waits for the other one, which the contract cannot close: `create_channel` succeeds but the host never takes the
   proposal up (`C91_locked_for_ever`). A relayer can bring this about whenever the owner asks for a channel a second time before
   the first handshake is complete.

11. **C93** The contract accepts a packet with neither messages nor queries. A host executes it and returns an empty result, and
   the event of the acknowledgement then has the blank value `packet_ack_base64` (`C93_empty_packet`). wasmd releases that
   refuse blank attribute values refuse the acknowledgement; on an ordered channel no later acknowledgement can be
   relayed either (C94). Whether a chain is affected depends on its wasmd release.

12. **C100** The Go client (`e2e/interchaintestv8/types/cwicacontroller/msgs.go` 251-262, 479) has no place for the name of the action
   `transfer_ownership`: an offer of ownership is marshalled as `{"update_ownership":{"new_owner":…}}`, which the contract refuses
   (`C100_no_offer`). The e2e tests do not use it.
13. **C104** All coins and all delegations of an account are asked for without a page request (`query_msg.rs` 239-247, 349-357), for
   which Cosmos SDK hosts send the first hundred; the key of the next page is dropped from the answer. The report has the shape of a
   complete one and holds a hundred entries (`C104_incomplete`).
14. **C105** The key of the next page of denominations is reported as an empty one and not as none with the last page (`query_msg.rs`
   508-509); asked again with it, the host starts over (`C105_repeats`). On the chain itself the same query reports none.
15. **C106** All validators are asked for without a status (`query_msg.rs` 328-336), so inactive ones are reported, too, among the
   first hundred (`C106_others_too`); cosmwasm-std documents the query as the active set.
16. **C108** The documentation promises permanent channel closure. If a second handshake is under way when the owner closes the open
   channel, a relayer can complete it afterwards and the contract has an open channel again (`C108_opened_after_close`); there is no
   way to withdraw a proposal.
17. **C121** The README says that a contract cannot create more than one interchain account. It is one for each connection:
   `create_channel` with options for another connection gives an account on another chain (`C121_two_accounts`), and the owner can
   go back and forth between them (`C121_many_accounts`). The contract reports the account of the latest channel only.
18. **C128** The README's example of a message that delegates and votes (`README.md` 150-175) is refused by the contract in every
   state (`C128_readme_refused`): the vote is in a member called `vote`, which is called `option` since the crate uses CosmWasm 2. The
   same holds of requests of clients of releases before v0.20.0 that vote (`C128_vote_needs_option`); the changelog does not say so.

Weaknesses that are not violations of a claim above: callback-counter counts callbacks from any sender (it is a test contract);
`GetIcaCount` of the owner contract fails before the first creation, because the item is never initialised; without a salt the
owner contract uses the block time in seconds, so two creations in one second collide and the second fails (C77). `close_channel` is
accepted while packets are in flight; the outcome of those the host has received is then never told (C90). Neither
contract refuses tokens attached to a call, and neither can ever send them back (C101). The Go client reads numbers as `int`, so
answers with numbers of 2^63 or more are errors there (C103); an absent answer to a wasm query loses which of three questions it
answers (`C103_absent`). `migrate` checks the version, the contract's name and the encoding, but not that there is an owner: a
contract left by a version that kept its owner elsewhere migrates and then has none for good (`C122_without_owner`).
A client of an earlier release that asks for a channel with `tx_encoding: proto3json` is not told that this is gone: the member is
passed over and the channel is opened with protobuf (C125).

## 4. Plan per property

Shapes: D = decision logic (case analysis on one entry point), I = invariant by induction over histories,
R = round trip / refinement of encodings, N = the property is false of the code: negation with a concrete
witness, plus a `_partial` theorem for what does hold.

| id | model | shape |
|---|---|---|
| C01 | `execute`, ownership | D: success implies sender is owner; also failure changes nothing in the world |
| C02 | world histories, ownership | I over histories with the ghost "last nomination" defined on the history |
| C03 | world histories | I; and D for Renounce |
| C04 | `acceptOwnership` | D with exact boundary |
| C05 | `instantiate` | D |
| C06 | world histories | I: open permission is down at every boundary, hence relayer OpenInit fails |
| C07 | world histories | I: same for close |
| C08 | world histories | I: counting |
| C09 | world | I+D |
| C10 | `stargate.rs`, protobuf, JSON | R |
| C11 | `createChannel` + `openInit` | R + D |
| C12 | `openInit` | D |
| C13 | `openAck` | D (iff) |
| C14 | entry points | D |
| C15 | world histories | I |
| C16 | world histories | I |
| C17 | world histories | I relating contract and chain |
| C18 | world | N (late timeout of a replaced channel closes the new one); partial: packets of the tracked channel |
| C19 | world | I + D |
| C20 | close handlers | D |
| C21 | world | I + D (liveness) |
| C22 | world histories | I with ghost register |
| C23 | world histories | I |
| C24 | world histories | N (two overlapping handshakes); partial: non-overlapping handshakes |
| C25 | world | D |
| C26 | world histories | I |
| C27 | packet codecs, host spec | R |
| C28 | host spec | R |
| C29 | conversion | R |
| C30 | `toIbcMsg` | D with exact arithmetic |
| C31 | conversion, world | D |
| C32 | world | N (ICA info survives closing; only the chain rejects); partial: no packet is ever sent on a closed channel |
| C33 | world histories | I |
| C34 | world histories | I with ghost table of sent query packets |
| C35 | world | N (error acknowledgement leaks the record); partial: success and timeout |
| C36 | handlers; storage keys | D; R (key injectivity) |
| C37 | world | N (error acknowledgement always reports one); partial: success acknowledgements |
| C38 | `resultFromResponse` | D |
| C39 | response codecs | R |
| C40 | `convertToValidator` | N (off by 10^18); partial: exact factor |
| C41 | query paths | D |
| C42 | `ibcPacketAck` | D (iff) |
| C43 | handlers | D |
| C44 | callback JSON | R |
| C45 | world histories | I |
| C46 | `Tx` trees | D + retry |
| C47 | events | injectivity |
| C48 | `migrate` | D (iff) |
| C49 | semver order | order laws |
| C50 | world histories + migrate | I |
| C51 | world, `Tx` | D |
| C52 | `query`, JSON | R |
| C53 | world histories | I with ghost register |
| C54 | helpers, JSON of messages | R |
| C55 | helpers | D relative to the chain's address function |
| C56 | `validateIcaAddress` | N (non-ASCII alphanumerics); partial: ASCII part |
| C57 | world histories | N for the host connection id; partial for ordering, port, connection |
| C58 | `RawWorld` against `World` | R: refinement in both directions |
| C59 | `RawWorld` histories | I on arbitrary initial storage |
| C60 | `World` | D over all operations |
| C61 | macro | R on any enum |
| C62 | codecs with and without `query` | R |
| C63 | callback-counter fed by any history | I |
| C64 | owner contract histories | I |
| C65 | owner contract and controller | D + R |
| C66 | `Wire` against the protobuf rules on bits | R (writer and reader, every input) |
| C67 | `Json` against the RFC 8259 grammar | R (writer and reader, every input) |
| C68 | `Base64` against RFC 4648 on bits | R (writer and reader, every input) |
| C69 | JSON codecs against `Spec/Api` | R: every byte string, read iff it spells the message |
| C70 | JSON codecs against `Spec/Api` | R: every answer and callback |
| C71 | owner contract with all its controllers | I over histories of the composed system |
| C72 | same | I relating the two storages |
| C73 | same | N (status never updated after a close); partial: open channels |
| C74 | same | I + R: every packet traced to a call of the admin |
| C75 | same | I |
| C76 | same | D (iff) + effects, in every reachable state |
| C77 | same | I: address taken for ever |
| C78 | owner contract on bytes against the typed one | R: refinement in both directions |
| C79 | queries of the owner contract | I over histories on bytes, R for the texts |
| C80 | macro, owner contract, callback-counter on bytes | R; I over lists of calls |
| C81 | contract joined with conforming hosts | I over joint histories |
| C82 | same | I: log of the hosts against the owner's transactions |
| C83 | same | I: callbacks against the log of the hosts |
| C84 | same | I (ordered channels) |
| C85 | same | D (possible in every reachable joint state) |
| C86 | same | I + R |
| C87 | `Model/Library` against `Spec/Host` | R |
| C88 | `Model/Packet` against `Spec/Interchain` | R |
| C89 | owner contract, its controllers and conforming hosts | I over joint histories (each controller's part is a history of `Interchain`) |
| C90 | contract joined with conforming hosts | D: induction over the outstanding packets; I for the packets lost on closing |
| C91 | same, with hosts that allow one channel at a time | D for reopening; I for the lock |
| C92 | every operation with every argument in every reachable state | both directions: D from the step relation, with invariants |
| C93 | events against wasmd's rules; contract joined with conforming hosts | D for the condition; I for non-empty packets |
| C94 | contract joined with conforming hosts | I over joint histories (ordered channels) |
| C95 | contract on raw storage and text, joined with conforming hosts | R to the typed joint system, both directions |
| C96 | owner contract, its controllers and conforming hosts | C90 for the controller, each step lifted to the joint system (C71: the owner contract never refuses) |
| C97 | contract and conforming hosts | C31, C27 for the send, C85 for the acknowledgement, I over the requests |
| C98 | contract | induction over the ways in which two messages say the same, for the reader of every answer; C42 for the end-to-end form |
| C99 | contract and conforming hosts | C91 followed by C97 |
| C100 | Go client and entry points | R: text of a tree, then case analysis per type, both directions; N for offers of ownership |
| C101 | `World`, owner world, and the tokens held | I over histories, with C60 |
| C102 | owner contract, controllers, conforming hosts | C97 for one controller, lifted with C71/C76; I over the list of actions |
| C103 | Go client and `query` of the three contracts | R: reader of every Go type on the tree of every answer; C79, C80 for the answers; injectivity per type |
| C104 | conversion of queries and answers, and a host with books | N; I on the joint system through C86, C38, C39; witness with 101 coins |
| C105 | the same, all_denom_metadata | N; I on the number of pages; list lemma: from the key at a position the list goes on there |
| C106 | the same, all_validators | N; C40 for the values, C86 for the answers; witness with an inactive validator |
| C107 | joint system, options asked for (`askedOptions`), continuation by owner and relayers under the host's rule | N; proposals are unique and host ends come from them (induction); `open_new`, `complete` (parts of C91) and C97 |
| C108 | controller chain, all continuations without `CreateChannel` | T; statuses only move forward (C23), induction; witness with an overlapping handshake |
| C109 | arbitrary answer bytes against the published protobuf definitions | T; each decoder accepts exactly the messages that fit (`Spec/Reading`), induction over lists; C38 for the callback |
| C110 | the lists of the callback counter against the packets and what the hosts did | I; C63 for the counter, settled packets by induction over histories (`commits_iff`), C83 for the hosts |
| C111 | the whole contract, typed and in bytes, against the machine of `Spec/Machine` | R; forward simulation by cases on the committed steps, acceptance by C92, readings by C27 and C109, completeness by induction over the runs of the machine; C58 for bytes |
| C112 | the owner contract in bytes, against the machine of `Spec/OwnerMachine` | R; simulation both ways through the typed contract (C78), each kind of call by an exact characterisation of when it is accepted; the state of the machine is determined by the typed storage |
| C113 | the calls of the contract in bytes, against the lists of complaints of `Spec/Refusal` | I, D; the state by the simulation of C111, each call by cases on its checks in order; reachable states by the invariant (the owner is set, the tracked channel is open or closed, the flags are off) |
| C114 | raw storage after a byte history, against the list of keys of `Spec/Stored` | R, I; C58 and the frame of C59 reduce keys to typed values; these by induction over histories; the bound by an injection into the list of candidates |
| C115 | byte calls to the owner contract in any reachable state, against the list of `Spec/OwnerRefusal` over the machine of C112 | R; the simulation of C112 turns storage into the machine's register, then case analysis of each call |
| C116 | raw storage of the owner contract after a byte history, against `Spec/OwnerStored` over the machine of C112 | R, I; the simulation of C112 gives the typed store, whose keys are separated as in C65; foreign keys by the frame of the byte calls |
| C117 | raw storage after a byte history, against `Spec/StoredAs` over the machine of C111 | R, I; as C114, with the values: the simulation of C111 gives the typed values and C69's readings turn them into JSON |
| C118 | `Rescheduled w l l'` (`Spec/Schedule`) and `Exec api w l w'` give `Exec api w l' w'` | I; adjacent transactions commute (`Facts/Schedule`: an outcome removes one commitment and its pending paths and nothing else), then induction along the new order; the exception by a witness |
| C119 | joint histories of owner contract, controllers and hosts; `Interleaved l l'` (`Spec/Isolation`) | I; transactions at different controllers commute (`Facts/Isolation`: each reads and writes the state of one controller, its hosts and its entry only), then induction along the new order |
| C120 | any storage of bytes; `Sees R W m raw` (`Spec/Footprint`): the outcome depends on the keys `R` only, only the keys `W` change | R; `Sees` composes along `>>=`, each storage operation has its footprint (`Facts/Footprint`) |
| C121 | histories of the joint system; `ToldConnection`, plans of turns and `Taken` (`Spec/Accounts`) | I, T, N; accounts come from channels of hosts, channels from proposals, proposals from options; plans by induction: close, open (`open_new`, which leaves other channels and hosts alone), use (C97) |
| C122 | `dated`: the same world with another version in the storage (`Spec/Upgrade`) | D, I, R; nothing but `migrate` reads the stored version, so each transaction commutes with `dated`; histories by induction; bytes through C58 |
| C123 | `ReadAlike`: every value of the two storages is read alike; `Twin`: the same chain around them (`Spec/Writing`) | D, I, R; each entry point is a composition of reads and writes that respect `ReadAlike`; lifted through submessages and replies to histories by induction (`OwnerReadAlike`, `OwnerTwin` for the owner contract); members by `Perm` of the known ones |
| C124 | `Scene`, `Stage`, `Played`: what is expected of each scene (`Spec/Script`); `Displays`: what contract, chains and counter show (`Spec/Displays`) | I; each scene keeps `Displays` (C97 for requests that arrive, C19 for closing, C91's construction for reopening, a timeout by hand), then induction on the script; the counter by C63 |
| C125 | the texts themselves: `SameMembers` (`Spec/Writing`) for options, member lists for the rest; calls compared as functions of the storage | D over all texts; options by `C123_members`, the absent `queries` by lookup of the member, refusals by the strict reader |
| C126 | `SentFor`, `ToldFailed`, `Patient`, `AllFailed` (`Spec/Retry`) over the joint histories of `Spec/Interchain` | at most once from C83 (told failed is not executed) and C82 (no packet twice); until done by induction on the errors with the round trip of C97 |
| C127 | `Ran`, `NetTxExec` (`Spec/InterchainTx`): the joint histories with callees that run, as in `Model/Tx` | I; each run is flattened to the operations in order, so the joint history is one of `Spec/Interchain`; `C127_all_transactions` shows that all runs of `Model/Tx` are covered |
| C128 | the text of the README (`Spec/Readme`), read by the contract | false as printed: evaluation of the reader on the text, and in general from the shape of requests (C69); partial: C97 and C27 for the corrected form |

## 5. Generators

`tools/gen.py` writes `Model/Types`, `Model/TypesJson`, `Model/Proto` from tables; `tools/gen_go.py` writes `Model/GoController`,
`Model/GoOwner` and `Model/GoAnswers` from the Go sources in `/repo`; `tools/gen_api.py` writes the proofs in
`Facts/Api` and `Facts/ApiStored`; `tools/gen_manifest.py` writes `MANIFEST.json` from the theorem names and `tools/notes.json`. `tools/check_citations.py` checks that
every definition of the model has a comment that cites `/repo` or says that it is not code of `/repo`, and that the cited
files and lines exist. The generated files
are committed; the build does not run the generators.

## 6. The documentation against the claims

What `/repo/README.md` and `/repo/docs/docs` promise, and where it is proved or found to be otherwise.

| promise | where | claims |
|---|---|---|
| the owner is the sender unless given; callbacks go to the given address, or nowhere | instantiate-msg | C05, C43 |
| a wrong counterparty connection does not fail the instantiation; the handshake cannot complete; the owner can start over | instantiate-msg, README | C107 |
| a connection that does not exist fails the instantiation | instantiate-msg | C51 (core refuses, everything is rolled back) |
| the only host port is `icahost`, also if left out | instantiate-msg | C10, C92 |
| all execute messages are for the owner only | execute-msg | C01; accepting the ownership is for the nominee (C02, C92) |
| `CreateChannel` without options repeats the last ones; with options it remembers them | execute-msg | C22 |
| `CreateChannel` without options uses those of the instantiation | comment on the variant, src/types/msg.rs 29-32 | false after a `CreateChannel` with options (`C22_not_those_of_instantiation`); the comment on the field, lines 34-35, is the true one |
| after closing, a channel can be opened with other parameters, to the same account | execute-msg, README | C21, C91 (partial), C99 |
| messages are executed atomically, before the queries | execute-msg, README | C27, C82 |
| the table of supported messages and queries | execute-msg | C31, C92; staking queries are supported, too, though not in the table |
| memo and timeout defaults | execute-msg | C27, C30 |
| callbacks stop when the address is unset | execute-msg | C43, C53 |
| two-step handover with an expiry | execute-msg | C02, C04 |
| `ica_info` is empty until a handshake is complete | query-msg | C15; it stays set while a later handshake is under way (finding 5) |
| callbacks carry the packet, the relayer, the acknowledgement | callbacks | C44, C83 |
| `query_result` is there only for packets with queries | callbacks | C37 (false for error acknowledgements, finding 3) |
| a refusing callback contract halts an ordered channel | callbacks | C46, C94 |
| events: only for acknowledgements, with these attributes | events | C47, C93 (finding 11) |
| only the contract itself can initiate a handshake | channel-handshake, README | C06, C08 |
| the version is built from the options; it is validated again at OpenAck; the account comes from there | channel-handshake | C10, C12, C13, C57 (finding 7), C81 |
| packets and acknowledgements as in ICS-27 | packet-data | C66, C67, C88 |
| permanent channel closure | go-vs-cosmwasm | C108 (partial, finding 16) |
| owner management, change of owner | go-vs-cosmwasm | C02, C03 |
| a channel is closed by a timeout only if it is ordered | README | C18 (finding 1), C19 |
| results of queries are deserialized and returned in callbacks | README | C38, C39, C86, C104–C106 (findings 13–15), C109 |
| contracts that link the crate without default features | README | C62, C87 |
| one interchain account | README | C121 (finding 17) |
| the example message delegates and then votes | README | C128 (finding 18) |

## 7. The end-to-end tests against the claims

What the tests in `/repo/e2e/interchaintestv8` check in one run, and where it is proved for all. The tests themselves are
not modelled; the host chains they run against are those of `Spec/Interchain`.

| test | checks | claims |
|---|---|---|
| `IcaContractChannelHandshakeTest` | channel, ordering, ports, reported account after the handshake | C10, C12, C15, C81, C124 (`C124_setup`) |
| `TestIcaRelayerInstantiatedChannelHandshake` | a relayer cannot start a handshake | C06, C08 |
| `TestRecoveredIcaContractInstantiatedChannelHandshake` | wrong connections; starting over | C51, C107 |
| `IcaContractExecutionTest`, `SendCosmosMsgsTest` | what the host executes, successes and errors counted | C27, C82, C83, C97, C124 |
| `TestIcaContractTimeoutPacket_Ordered`, `_Unordered` | the channel after a timeout, reopening, use after it | C18, C91, C99, C124 |
| `TestMigrateOrderedToUnordered`, `TestCloseChannel` | closing, reopening with another ordering | C19, C21, C22, C99, C124 |
| `TestBankAndStargateQueries`, `TestStakingQueries`, `TestSendWasmQueries` | the results of queries as told in callbacks | C38, C39, C86, C103–C106, C109 |
| `TestSendWasmMsgs` | CosmWasm messages on the host | C27, C31 |
| `TestOwnerCreateIcaContract`, `TestOwnerPredefinedAction` | the owner contract's record and its predefined payment | C64, C65, C112 |
