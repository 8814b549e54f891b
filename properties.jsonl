{"id": "C01", "title": "Only the owner acts", "statement": "CreateChannel, CloseChannel, SendCosmosMsgs, UpdateCallbackAddress and UpdateOwnership{TransferOwnership} change nothing and emit nothing unless the sender is the contract's current owner.", "quantifier": "every storage content, every sender, every block, every execute message of those kinds", "why_tests_cant": "senders, stored owners and message payloads are unbounded; a test only tries a few non-owners against a few messages", "anchors": ["src/contract.rs: execute, create_channel, close_channel, send_cosmos_msgs, update_callback_address, update_ownership", "cw_ownable::assert_owner"]}
{"id": "C02", "title": "The owner changes only by a two-step handover", "statement": "Between two committed states of an instantiated contract the owner changes only through AcceptOwnership sent by the new owner, who was nominated by the then-current owner in an earlier TransferOwnership that has not been replaced and has not expired.", "quantifier": "every history of transactions (owner, non-owner, relayer, callback re-entrancy) from instantiation", "why_tests_cant": "a property of whole histories: the nomination may lie arbitrarily far back with arbitrary messages in between", "anchors": ["src/contract.rs: update_ownership", "cw_ownable::update_ownership"]}
{"id": "C03", "title": "The contract never becomes ownerless", "statement": "From a successful instantiation on, the contract always has an owner; RenounceOwnership always fails, whoever sends it.", "quantifier": "every history of transactions from instantiation; every sender of RenounceOwnership", "why_tests_cant": "invariant over unbounded histories", "anchors": ["src/contract.rs: update_ownership 234-236, instantiate", "src/types/error.rs: OwnershipCannotBeRenounced"]}
{"id": "C04", "title": "A nomination lapses exactly at its expiry", "statement": "AcceptOwnership by the pending owner succeeds while the nomination has not expired and fails from the first block whose height (or time) reaches the expiry; a lapsed nomination leaves the owner unchanged.", "quantifier": "every expiry (height, time, never), every block height and time", "why_tests_cant": "boundary over all 64-bit heights and times", "anchors": ["src/contract.rs: update_ownership", "cw_ownable::accept_ownership"]}
{"id": "C05", "title": "Instantiation fixes owner and callback address", "statement": "A successful instantiation makes the owner the given (validated) address, or the sender when none is given, sets the callback address exactly as given, records the channel options, and leaves no ICA account, no tracked channel and no pending query.", "quantifier": "every sender, every instantiate message, every address validator", "why_tests_cant": "all messages and address formats", "anchors": ["src/contract.rs: instantiate", "src/types/state.rs: State::new"]}
{"id": "C06", "title": "Relayers can never initiate a handshake", "statement": "A MsgChannelOpenInit for the contract's port submitted by anyone other than the contract itself never creates a channel, at any point of any history, whatever its parameters.", "quantifier": "every history of transactions, every submitted channel proposal", "why_tests_cant": "the permission flag must be down at every transaction boundary of every history, including failed submessages and re-entrant callbacks", "anchors": ["src/ibc/handshake.rs: ibc_channel_open::init", "src/types/state.rs: ALLOW_CHANNEL_OPEN_INIT", "src/contract.rs: instantiate, create_channel"]}
{"id": "C07", "title": "Relayers can never close the channel from this side", "statement": "A MsgChannelCloseInit for one of the contract's channels submitted by anyone other than the contract itself never succeeds, at any point of any history.", "quantifier": "every history of transactions, every channel", "why_tests_cant": "same as C06: permission at every transaction boundary", "anchors": ["src/ibc/handshake.rs: ibc_channel_close::init", "src/types/state.rs: ALLOW_CHANNEL_CLOSE_INIT", "src/contract.rs: close_channel"]}
{"id": "C08", "title": "Each authorisation opens at most one channel", "statement": "The number of channels ever created on the contract's port is at most the number of successful instantiations and CreateChannel executions, and each of these creates exactly one.", "quantifier": "every history of transactions", "why_tests_cant": "counting over unbounded histories", "anchors": ["src/ibc/handshake.rs: init 101-108", "src/contract.rs: create_channel"]}
{"id": "C09", "title": "No new handshake while a channel is tracked open", "statement": "While the contract reports an open channel, CreateChannel fails and leaves all state unchanged (including stored options).", "quantifier": "every history, every option value, every sender", "why_tests_cant": "the check happens in a nested callback whose failure must unwind the outer message", "anchors": ["src/ibc/handshake.rs: init 128-135", "src/contract.rs: create_channel"]}
{"id": "C10", "title": "The contract's own proposal", "statement": "The MsgChannelOpenInit the contract submits is, when decoded by the chain from its protobuf bytes, a channel in state INIT from port wasm.<contract> over exactly the requested connection, to the requested counterparty port (icahost by default), with the requested ordering (ordered by default), signed by the contract, and its version string decodes to ICS-27 metadata with protobuf encoding, tx type sdk_multi_msg, the two requested connection ids and no address.", "quantifier": "every contract address and every option value, all strings (including quotes, control characters and non-ASCII)", "why_tests_cant": "byte-level encodings over all strings", "anchors": ["src/ibc/types/stargate.rs", "src/ibc/types/metadata.rs: Display"]}
{"id": "C11", "title": "The contract accepts its own proposal", "statement": "With counterparty port unspecified or icahost and no tracked open channel, a CreateChannel by the owner always passes the contract's own OpenInit validation, and the version returned to the chain is byte for byte the proposed one.", "quantifier": "every option value and every storage content with the owner set", "why_tests_cant": "needs serialise/parse agreement for all strings", "anchors": ["src/ibc/types/stargate.rs", "src/ibc/handshake.rs: init", "src/ibc/types/metadata.rs: validate"]}
{"id": "C12", "title": "What an accepted OpenInit guarantees", "statement": "Every OpenInit the contract accepts has counterparty port icahost, and the version it returns is ICS-27 metadata with version ics27-1, the channel's own connection id, protobuf encoding, tx type sdk_multi_msg, and an address that is empty or at most 128 bytes of alphanumeric characters.", "quantifier": "every storage content, every proposed channel and version string (including the empty one)", "why_tests_cant": "all version strings", "anchors": ["src/ibc/handshake.rs: init", "src/ibc/types/metadata.rs: validate, from_channel"]}
{"id": "C13", "title": "What an accepted OpenAck guarantees", "statement": "OpenAck succeeds exactly when the contract is initialised, the local port is not icahost and the counterparty version parses as ICS-27 metadata that is valid for the channel and carries a non-empty valid address; then the contract's ICA info is exactly that address, that channel id and that encoding, the tracked channel is the acknowledged channel (with the counterparty version) in state OPEN, and everything else in storage is unchanged.", "quantifier": "every storage content, every channel and counterparty version string", "why_tests_cant": "all version strings and storage contents", "anchors": ["src/ibc/handshake.rs: on_acknowledgement", "src/ibc/types/metadata.rs: validate"]}
{"id": "C14", "title": "Controller-only IBC module", "statement": "OpenTry, OpenConfirm and packet receive always abort and never change state: the contract cannot be made the passive end of a channel nor receive a packet.", "quantifier": "every storage content and every message", "why_tests_cant": "all inputs", "anchors": ["src/ibc/handshake.rs: ibc_channel_open, ibc_channel_connect", "src/ibc/relay.rs: ibc_packet_receive"]}
{"id": "C15", "title": "ICA info is always usable", "statement": "In every reachable state, whenever ICA info is set its address is non-empty, at most 128 bytes and alphanumeric, its encoding is protobuf, and its channel id is the id of the tracked channel; it is set exactly when a tracked channel exists and is never unset again.", "quantifier": "every history of transactions from instantiation", "why_tests_cant": "invariant over unbounded histories", "anchors": ["src/types/state.rs: State, IcaInfo", "src/ibc/handshake.rs: on_acknowledgement", "src/contract.rs: query"]}
{"id": "C16", "title": "Reported status is OPEN or CLOSED, and OPEN only by a handshake", "statement": "In every reachable state GetChannel reports status OPEN or CLOSED or fails because no handshake has completed; a status becomes OPEN only in the transaction of an OpenAck for that very channel.", "quantifier": "every history of transactions from instantiation", "why_tests_cant": "invariant over unbounded histories", "anchors": ["src/types/state.rs: ChannelStatus", "src/contract.rs: query::channel"]}
{"id": "C17", "title": "A channel reported open is open on the chain", "statement": "In every reachable state, if GetChannel reports a channel OPEN then the chain's own channel with that id is OPEN and has exactly the reported endpoints, ordering, version and connection.", "quantifier": "every history of transactions from instantiation (any number of handshakes, closings, timeouts, including two overlapping handshakes)", "why_tests_cant": "relates two state machines over unbounded histories", "anchors": ["src/types/state.rs: ChannelState", "src/ibc/handshake.rs", "src/ibc/relay.rs: ibc_packet_timeout"]}
{"id": "C18", "title": "A timeout closes only the channel it happened on", "statement": "When a packet times out the reported channel becomes CLOSED exactly if that packet was sent on the reported channel and the channel is ordered; a timeout of a packet of another channel leaves the reported channel as it is.", "quantifier": "every history of transactions, every timed-out packet", "why_tests_cant": "needs histories where a channel was replaced while packets of the old one were in flight", "anchors": ["src/ibc/relay.rs: ibc_packet_timeout"]}
{"id": "C19", "title": "The owner can always close an open channel", "statement": "Whenever the contract reports a channel OPEN (and the chain accepts the close), CloseChannel by the owner succeeds: afterwards both the contract and the chain report exactly that channel CLOSED, nothing else in the contract changed, and no permission to close is left behind.", "quantifier": "every reachable state", "why_tests_cant": "needs agreement of the two views of the channel in every reachable state", "anchors": ["src/contract.rs: close_channel", "src/ibc/handshake.rs: ibc_channel_close::init"]}
{"id": "C20", "title": "Closing concerns only the tracked open channel", "statement": "CloseInit and CloseConfirm succeed only for a channel equal in every field to the tracked one while it is OPEN; they set its status to CLOSED and change nothing else but the close permission.", "quantifier": "every storage content, every channel", "why_tests_cant": "all channels and storage contents", "anchors": ["src/ibc/handshake.rs: ibc_channel_close::init, confirm"]}
{"id": "C21", "title": "A closed channel can be replaced", "statement": "Whenever the contract does not report an OPEN channel, a CreateChannel by the owner to the default port succeeds if the chain's core accepts the proposal, whatever happened before.", "quantifier": "every reachable state in which no channel is reported open, every option value with the default port", "why_tests_cant": "liveness from every reachable state", "anchors": ["src/contract.rs: create_channel", "src/ibc/handshake.rs: init"]}
{"id": "C22", "title": "CreateChannel without options repeats the last options", "statement": "CreateChannel with no options proposes exactly the channel of the most recent successful CreateChannel-with-options or instantiation; failed attempts do not change the remembered options.", "quantifier": "every history of transactions", "why_tests_cant": "register semantics over unbounded histories with failures", "anchors": ["src/contract.rs: create_channel, instantiate", "src/types/state.rs: CHANNEL_OPEN_INIT_OPTIONS"]}
{"id": "C23", "title": "A closed channel stays closed", "statement": "Once the chain has closed a channel of the contract it never becomes open again and the contract never again reports it OPEN.", "quantifier": "every history of transactions", "why_tests_cant": "temporal property over unbounded histories", "anchors": ["src/ibc/handshake.rs", "src/types/state.rs: ChannelState::close"]}
{"id": "C24", "title": "At most one open channel", "statement": "At every moment at most one channel of the contract is open on the chain.", "quantifier": "every history of transactions, every interleaving of handshakes", "why_tests_cant": "needs interleavings of two handshakes", "anchors": ["src/ibc/handshake.rs: on_acknowledgement, init", "src/types/state.rs: 'This application only supports one channel'"]}
{"id": "C25", "title": "Exactly one packet per send, on the ICA channel", "statement": "A successful SendCosmosMsgs sends exactly one packet, on the channel of the current ICA info, with next sequence number of that channel, and changes nothing in the contract except (when queries were given) one pending-query record.", "quantifier": "every reachable state, every message and query list", "why_tests_cant": "all messages and states", "anchors": ["src/contract.rs: send_cosmos_msgs", "src/ibc/types/packet.rs: to_ibc_msg"]}
{"id": "C26", "title": "No packet before the handshake completes", "statement": "SendCosmosMsgs fails without effect as long as no handshake has completed.", "quantifier": "every history without a completed handshake, every sender and message", "why_tests_cant": "all histories", "anchors": ["src/types/state.rs: get_ica_info", "src/contract.rs: send_cosmos_msgs"]}
{"id": "C27", "title": "The host sees exactly the requested messages, in order", "statement": "Decoding the packet as the ICA host does (JSON packet data, then CosmosTx protobuf, then each Any by type URL) yields type EXECUTE_TX, the given memo, and exactly the host-chain messages the CosmosMsgs denote, in order, every field preserved (addresses, denominations, amounts as exact integers, payload bytes, vote options and weights, timeouts), followed, if there are queries, by one MsgModuleQuerySafe as the last message, containing the queries in order.", "quantifier": "every list of supported messages, every list of supported queries, all field values", "why_tests_cant": "byte-level encodings over all strings, all 128-bit amounts and all lists", "anchors": ["src/ibc/types/packet.rs: from_cosmos_msgs, from_proto_anys", "src/types/cosmos_msg.rs", "src/types/query_msg.rs: query_to_protobuf, proto"]}
{"id": "C28", "title": "Every converted message is signed by the ICA", "statement": "Every host message the contract produces from a non-Stargate CosmosMsg, and the query message, names the ICA address as its signer (sender, delegator, voter, depositor).", "quantifier": "every supported message and ICA address", "why_tests_cant": "all messages", "anchors": ["src/types/cosmos_msg.rs", "src/ibc/types/packet.rs 118-121"]}
{"id": "C29", "title": "Stargate messages pass through verbatim", "statement": "A Stargate message reaches the host with exactly its type URL and bytes; a Stargate query with exactly its path and bytes.", "quantifier": "every type URL, path and byte string", "why_tests_cant": "all byte strings", "anchors": ["src/types/cosmos_msg.rs 41-44", "src/types/query_msg.rs 17"]}
{"id": "C30", "title": "The packet timeout", "statement": "The packet times out exactly timeout_seconds (600 if not given) after the block time, as an exact number of nanoseconds; if that does not fit 64 bits the send aborts instead of wrapping around, and no timeout height is set.", "quantifier": "every block time and every timeout value", "why_tests_cant": "all 64-bit values", "anchors": ["src/ibc/types/packet.rs: to_ibc_msg, DEFAULT_TIMEOUT_SECONDS"]}
{"id": "C31", "title": "Unsupported requests are rejected as a whole", "statement": "If any message or query in the list is of an unsupported kind the whole execution fails, sends nothing and changes nothing; every list of supported messages and queries is accepted for conversion.", "quantifier": "every list of messages and queries, every position of the unsupported one", "why_tests_cant": "all lists", "anchors": ["src/types/cosmos_msg.rs: convert_to_proto_any", "src/types/query_msg.rs: query_to_protobuf", "src/ibc/types/packet.rs: from_cosmos_msgs"]}
{"id": "C32", "title": "Packets on closed channels", "statement": "After the tracked channel has been closed, SendCosmosMsgs is rejected by the contract itself until a new handshake completes.", "quantifier": "every history, every sender", "why_tests_cant": "all histories", "anchors": ["src/contract.rs: send_cosmos_msgs", "src/types/state.rs: delete_ica_info"]}
{"id": "C33", "title": "No query bookkeeping is left half done", "statement": "At every transaction boundary the scratch record used between sending a query packet and learning its sequence is empty; each successful query send creates exactly the record (channel, sequence) of the packet actually sent, holding the paths of its queries in order.", "quantifier": "every history of transactions including failing sends", "why_tests_cant": "the reply happens in a nested call; failures must unwind", "anchors": ["src/contract.rs: reply::send_query_packet", "src/ibc/types/packet.rs 116", "src/types/state.rs: QUERY, PENDING_QUERIES"]}
{"id": "C34", "title": "Pending query records correspond to query packets", "statement": "In every reachable state a pending-query record at (channel, sequence) exists only for a packet that was sent with queries and whose settlement has not been processed by success acknowledgement or timeout, and holds the paths of exactly that packet's queries.", "quantifier": "every history of transactions", "why_tests_cant": "relates ghost history to storage over unbounded histories", "anchors": ["src/types/state.rs: PENDING_QUERIES", "src/ibc/relay.rs"]}
{"id": "C35", "title": "Settling a packet clears its pending query", "statement": "After a packet has been acknowledged or timed out no pending-query record for it remains.", "quantifier": "every history, every settled packet", "why_tests_cant": "all histories", "anchors": ["src/ibc/relay.rs: ibc_packet_ack::success, error, ibc_packet_timeout::callback"]}
{"id": "C36", "title": "Settling one packet never disturbs another", "statement": "Processing the acknowledgement or timeout of one packet leaves the pending-query record of every other packet unchanged; in the raw key-value storage the records of different (channel, sequence) pairs and all other items occupy different keys.", "quantifier": "every pair of packets, every channel id, every 64-bit sequence", "why_tests_cant": "all channel id strings and sequences", "anchors": ["src/ibc/relay.rs", "src/types/state.rs: PENDING_QUERIES", "cw_storage_plus key encoding"]}
{"id": "C37", "title": "A query result is reported exactly for query packets", "statement": "The acknowledgement callback carries a query result if and only if the packet carried queries.", "quantifier": "every history, every acknowledgement", "why_tests_cant": "all acknowledgements and histories", "anchors": ["src/ibc/relay.rs: ibc_packet_ack", "src/types/callbacks.rs", "docs/docs/contract-api/04-callbacks.mdx"]}
{"id": "C38", "title": "Query responses correspond to queries positionally", "statement": "For a success acknowledgement of a packet with n queries, the callback carries either Success with the host's height and exactly n responses, the i-th decoded from the i-th response bytes according to the i-th query's kind, or an Error when the number of responses differs or some response does not decode; the query response is read from the last message response.", "quantifier": "every pending path list, every acknowledgement byte string", "why_tests_cant": "all byte strings and lists", "anchors": ["src/types/query_msg.rs: result_from_response, from_protobuf", "src/ibc/types/packet.rs: decode_module_query_safe_resp_last_index"]}
{"id": "C39", "title": "Host responses are decoded faithfully", "statement": "If the host answers a bank, wasm or staking query with the protobuf encoding of some value, the reported response contains that value: coins with the exact denomination and amount, metadata with every field, contract info, raw and smart bytes, delegations, bonded denomination, in order.", "quantifier": "every response value of every supported query kind", "why_tests_cant": "byte-level encodings over all values", "anchors": ["src/types/query_msg.rs: from_protobuf::response, bank_response, wasm_response, staking_response"]}
{"id": "C40", "title": "Validator commissions are reported with their true value", "statement": "The commission, max commission and max change rate of a validator reported in a staking query response equal the rates the host chain holds.", "quantifier": "every validator and every 18-decimal rate", "why_tests_cant": "all rates", "anchors": ["src/types/query_msg.rs: convert_to_validator", "e2e/interchaintestv8/icaicq_test.go 333-335"]}
{"id": "C41", "title": "A supported query never comes back as an unknown data type", "statement": "For every query the contract accepts, the path it records is one its response decoder knows for the same query kind: decoding dispatches to the decoder of exactly that kind.", "quantifier": "every supported query", "why_tests_cant": "all queries", "anchors": ["src/types/query_msg.rs: constants, convert_to_protobuf, from_protobuf"]}
{"id": "C42", "title": "A malformed acknowledgement changes nothing", "statement": "An acknowledgement that is not JSON of the form {\"result\": base64} or {\"error\": string}, or a success acknowledgement of a query packet whose query response cannot be located and decoded, makes the transaction fail without any state change; every other acknowledgement is processed.", "quantifier": "every acknowledgement byte string and storage content", "why_tests_cant": "all byte strings", "anchors": ["src/ibc/relay.rs: ibc_packet_ack", "src/ibc/types/packet.rs: acknowledgement"]}
{"id": "C43", "title": "Callbacks exactly when an address is set", "statement": "Processing an OpenAck, an acknowledgement or a timeout sends exactly one callback, to the callback address current at that moment, with no funds, if one is set, and none otherwise; no other entry point sends a callback.", "quantifier": "every storage content, every event", "why_tests_cant": "all events and states", "anchors": ["src/ibc/handshake.rs 189-201", "src/ibc/relay.rs", "src/types/callbacks.rs: into_cosmos_msg"]}
{"id": "C44", "title": "Callbacks say what happened", "statement": "The callback bytes decode (as the receiving contract decodes them) to the variant of the event with exactly its data: for an acknowledgement the decoded acknowledgement, the original packet and the relayer; for a timeout the original packet and the relayer; for OpenAck the channel, ICA address and encoding.", "quantifier": "every event, all field values", "why_tests_cant": "JSON round trip over all strings, byte strings and numbers", "anchors": ["src/types/callbacks.rs", "src/ibc/relay.rs", "src/ibc/handshake.rs"]}
{"id": "C45", "title": "Every packet is settled at most once", "statement": "For every sent packet at most one acknowledgement-or-timeout callback is ever committed.", "quantifier": "every history of transactions including re-entrant callbacks and retries after failures", "why_tests_cant": "all histories", "anchors": ["src/ibc/relay.rs", "src/types/callbacks.rs"]}
{"id": "C46", "title": "A failing callback undoes the event", "statement": "If the callback contract fails, the whole event is undone (contract state, chain state, packet commitment), so the event can be retried and is then processed as if for the first time.", "quantifier": "every reachable state, every event, every nested behaviour of the callback contract", "why_tests_cant": "all states and re-entrant behaviours", "anchors": ["src/types/callbacks.rs", "docs/docs/contract-api/04-callbacks.mdx"]}
{"id": "C47", "title": "Events identify the packet", "statement": "Every processed acknowledgement emits exactly one acknowledge_packet event whose attributes determine the packet's sequence, source port and source channel and the acknowledged result bytes or error.", "quantifier": "every packet and acknowledgement", "why_tests_cant": "injectivity over all values", "anchors": ["src/ibc/types/events.rs"]}
{"id": "C48", "title": "Migration only goes forward", "statement": "Migrate succeeds exactly when the stored contract name is this contract's, the stored version is a valid semantic version strictly lower than 0.20.0 in semver order, the contract state is readable and any ICA info uses protobuf encoding; the stored version becomes 0.20.0 and nothing else changes; a second migrate fails.", "quantifier": "every storage content, all version strings", "why_tests_cant": "all version strings", "anchors": ["src/contract.rs: migrate, validate_semver, validate_channel_encoding", "src/types/keys.rs"]}
{"id": "C49", "title": "Semver precedence used by migrate is a strict total order", "statement": "The version order used by migrate is a total order on valid versions in which a pre-release is below its release and numeric identifiers are below alphanumeric ones, so migrations can never cycle.", "quantifier": "all pairs and triples of valid version strings", "why_tests_cant": "all versions", "anchors": ["src/contract.rs: validate_semver", "semver::Version Ord"]}
{"id": "C50", "title": "Unprotobuf channels are unreachable", "statement": "No reachable state, including one entered by migrating from any older version's storage, lets the contract send with an encoding other than protobuf.", "quantifier": "every history from instantiation or from a migrated older storage", "why_tests_cant": "all histories and old storages", "anchors": ["src/contract.rs: validate_channel_encoding", "src/ibc/types/metadata.rs: validate"]}
{"id": "C51", "title": "Failed transactions leave no trace", "statement": "Any failing entry point (error or abort), including a failing nested message, leaves contract and chain state exactly as before the transaction.", "quantifier": "every reachable state and operation", "why_tests_cant": "all histories", "anchors": ["src/contract.rs", "src/ibc/handshake.rs", "src/ibc/relay.rs"]}
{"id": "C52", "title": "Smart queries are faithful and read-only", "statement": "GetContractState, GetChannel and Ownership return the JSON of exactly the stored value, which a client decodes back to it, and change nothing.", "quantifier": "every storage content", "why_tests_cant": "JSON round trip over all values", "anchors": ["src/contract.rs: query", "src/helpers.rs: CwIcaControllerContractQuerier"]}
{"id": "C53", "title": "The latest callback address wins", "statement": "After a successful UpdateCallbackAddress every later event uses that address (or none) until the next successful update; updating it does not touch the ICA info, and a handshake does not touch the callback address.", "quantifier": "every history of transactions", "why_tests_cant": "register semantics over unbounded histories", "anchors": ["src/contract.rs: update_callback_address", "src/ibc/handshake.rs: on_acknowledgement"]}
{"id": "C54", "title": "Helper messages reach the contract intact", "statement": "The JSON a calling contract builds with CwIcaControllerContract::execute or CwIcaControllerCode::instantiate(2) is decoded by the contract to exactly the message the caller passed, targets the wrapped address or code id and carries no funds.", "quantifier": "every execute and instantiate message", "why_tests_cant": "JSON round trip over all messages", "anchors": ["src/helpers.rs", "src/types/msg.rs"]}
{"id": "C55", "title": "Predicted address equals instantiated address", "statement": "The address returned by instantiate2 is the one the chain gives the contract created by the returned message when sent by the caller with the same salt.", "quantifier": "every code id, creator, salt and message", "why_tests_cant": "all inputs", "anchors": ["src/helpers.rs: instantiate2"]}
{"id": "C56", "title": "ICA addresses are plain ASCII", "statement": "Every ICA address the contract accepts consists of ASCII letters and digits only.", "quantifier": "every counterparty version string", "why_tests_cant": "all strings", "anchors": ["src/ibc/types/metadata.rs: validate_ica_address"]}
{"id": "C57", "title": "The handshake keeps what was proposed", "statement": "When OpenAck succeeds, the tracked channel's ordering, counterparty port and connections are those the owner asked for in the CreateChannel (or instantiation) that created the channel, and the metadata's host connection id is the one proposed.", "quantifier": "every history of transactions, every counterparty version", "why_tests_cant": "all histories", "anchors": ["src/ibc/handshake.rs: on_acknowledgement", "src/ibc/types/metadata.rs: validate ('We cannot check the counterparty connection_id')"]}
{"id": "C58", "title": "Every stored value stays readable and bytes mean messages", "statement": "In every history from an empty storage, whatever bytes users send as messages and whatever relayers do, everything the contract keeps in storage decodes, and the history is, step by step and with the same effects, a history of the messages those bytes stand for; every history of messages arises this way; bytes that are not a message of the contract are refused.", "quantifier": "every byte string sent as a message, every history, every storage for the last part; channel ids of at most 65535 bytes", "why_tests_cant": "all byte strings and all histories", "anchors": ["src/contract.rs", "src/ibc/handshake.rs", "src/ibc/relay.rs", "src/types/state.rs", "cw_storage_plus Item and Map"]}
{"id": "C59", "title": "The contract writes only its own keys", "statement": "Starting from any storage, in any history, no key changes other than the contract's eight named values and the records of pending queries.", "quantifier": "every initial storage, every history, every key", "why_tests_cant": "all storages and keys", "anchors": ["src/types/state.rs", "src/contract.rs", "cw_storage_plus key encoding"]}
{"id": "C60", "title": "Nothing the owner sends is executed locally", "statement": "On its own chain the contract only creates and closes channels, sends packets, calls the callback address without funds and emits events; no other message is executed, so none of the contract's own funds ever move.", "quantifier": "every world and every operation, every list of messages", "why_tests_cant": "all messages and all states", "anchors": ["src/contract.rs: execute", "src/ibc/types/packet.rs: to_ibc_msg", "src/types/callbacks.rs"]}
{"id": "C61", "title": "The callback macro makes any message enum a receiver", "statement": "An execute enum extended with the ica_callback_execute macro reads every callback the controller sends as the added variant carrying that callback, reads every other message exactly as before, and the macro applies to enums without arguments only.", "quantifier": "every enum without a clashing variant, every callback, every other JSON value", "why_tests_cant": "all enums and all messages", "anchors": ["derive/src/lib.rs: merge_variants, ica_callback_execute", "src/types/callbacks.rs: ReceiverExecuteMsg, into_json_binary"]}
{"id": "C62", "title": "Crates built with and without the query feature understand each other", "statement": "A receiver built without the query feature reads every callback, losing only the query result; a SendCosmosMsgs written by a client built without it is run by the contract as the same message without queries.", "quantifier": "every callback, every list of messages, memo and timeout", "why_tests_cant": "all messages; two builds of the same types", "anchors": ["Cargo.toml features", "src/types/callbacks.rs", "src/types/msg.rs: ExecuteMsg"]}
{"id": "C63", "title": "The callback counter counts every settled packet once", "statement": "A freshly instantiated callback counter never fails on a call of the controller; after any history it shows exactly the callbacks it was sent, in order, under success, error or timeout; together they are as many as the packets acknowledged or timed out while it was the callback address.", "quantifier": "every history of the controller with reentrant callbacks, every address, every storage", "why_tests_cant": "all histories", "anchors": ["testing/contracts/callback-counter/src/contract.rs", "testing/contracts/callback-counter/src/state.rs", "src/ibc/relay.rs"]}
{"id": "C64", "title": "The owner contract keeps a faithful registry of its controllers", "statement": "Only its admin makes it create controllers or send; ids are dense and in order of creation, each entry has the address of the contract the chain really created, addresses and ids are in bijection; every controller is owned by it, reports to it and has it as admin; only a controller's own OpenAck callback changes its entry.", "quantifier": "every history of the owner contract on any chain, every caller and message", "why_tests_cant": "all histories and callers", "anchors": ["testing/contracts/cw-ica-owner/src/contract.rs", "testing/contracts/cw-ica-owner/src/state.rs", "src/helpers.rs: instantiate2"]}
{"id": "C65", "title": "Owner contract and controller work together", "statement": "The owner contract accepts every callback its controllers send, so it never blocks an acknowledgement or timeout; after an OpenAck its entry equals what the controller reports; its predefined action reaches the controller with the given id and is run there as one transfer of 100 stake.", "quantifier": "every history of the owner contract, every world of the controller and every operation", "why_tests_cant": "all pairs of states of two contracts", "anchors": ["testing/contracts/cw-ica-owner/src/contract.rs", "src/types/callbacks.rs", "src/ibc/handshake.rs", "src/helpers.rs: execute"]}
{"id": "C66", "title": "Packets and responses are standard protobuf", "statement": "Exactly the byte strings that follow the protobuf encoding rules are read, and as the records they spell; no byte string is ambiguous; the bytes of every packet sent are a JSON document around a protobuf message of google.protobuf.Any records.", "quantifier": "every byte string below 2^64 bytes, every committed send", "why_tests_cant": "all byte strings and all messages", "anchors": ["src/ibc/types/packet.rs: IcaPacketData", "src/ibc/types/packet.rs: acknowledgement", "src/types/query_msg.rs"]}
{"id": "C67", "title": "Messages are standard JSON", "statement": "Exactly the documents of RFC 8259 (naturals as numbers) are read, and as the tree they spell; whatever the contract writes is such a document for the tree written; no text is ambiguous.", "quantifier": "every text, every JSON tree", "why_tests_cant": "all texts: nesting, escapes, white space", "anchors": ["src/ibc/types/packet.rs", "src/ibc/types/metadata.rs", "src/types/callbacks.rs", "src/types/msg.rs"]}
{"id": "C68", "title": "Binary data is standard base64", "statement": "Binary data is written as RFC 4648 base64 with padding; exactly such texts are read, padding optional, left-over bits zero; no text is ambiguous.", "quantifier": "every byte string, every text", "why_tests_cant": "all byte strings", "anchors": ["src/ibc/types/packet.rs: acknowledgement", "src/ibc/types/events.rs: packet_ack", "src/types/callbacks.rs"]}
{"id": "C69", "title": "The JSON messages are understood exactly as documented", "statement": "A call of an entry point (instantiate, execute, query, migrate) succeeds exactly if its bytes are the UTF-8 text of a JSON document of one of the documented forms (member and variant names, optional and nullable members, refused unknown members, quoted numbers, base64 bytes) and the message it means is accepted; no text means two messages. The same holds for the ICS-27 metadata in a channel version and for packet acknowledgements.", "quantifier": "all byte strings, all contract states, senders and environments; every message, coin, query and option value nested in the message", "why_tests_cant": "Tests try a handful of spellings; a renamed, mistyped, wrongly defaulted or ambiguously parsed member in one of some fifty nested types shows only for inputs nobody wrote down.", "anchors": ["src/types/msg.rs: InstantiateMsg, ExecuteMsg, QueryMsg, MigrateMsg, ChannelOpenInitOptions", "src/contract.rs: instantiate, execute, query, migrate", "src/ibc/types/metadata.rs: IcaMetadata", "src/ibc/types/packet.rs: AcknowledgementData"]}
{"id": "C70", "title": "Answers and callbacks are written exactly as documented", "statement": "The answer to each query and the message of each callback is the UTF-8 text of a JSON document with exactly the documented members in the documented form: the channel with its state name, the contract state, the ownership, and for callbacks the acknowledgement, packet, relayer and, when present, the typed query results; a callback carries no funds.", "quantifier": "all contract states, all reachable and unreachable worlds, all committed operations, all packets, acknowledgements and query results", "why_tests_cant": "Clients and callback contracts in other languages depend on every member name and number format; tests compare with the crate's own deserializer, which would accept a self-consistent change.", "anchors": ["src/types/state.rs: ContractState, ChannelState, ChannelStatus, IcaInfo", "src/types/callbacks.rs: IcaControllerCallbackMsg, ReceiverExecuteMsg", "src/types/query_msg.rs: IcaQueryResult, IcaQueryResponse", "src/contract.rs: query"]}
{"id": "C71", "title": "Controllers stay with the owner contract", "statement": "A controller created by the cw-ica-owner contract belongs to it, reports to it, and has no nominated successor, for ever; nobody else can make it execute anything; and the owner contract never makes a relayer's transaction on the controller fail.", "quantifier": "every chain, every number of controllers, every interleaving of transactions by admin, strangers and relayers", "why_tests_cant": "The composition of two contracts over unbounded histories; a failing callback would freeze a channel only in histories nobody wrote a test for.", "anchors": ["testing/contracts/cw-ica-owner/src/contract.rs: create_ica_contract, ica_callback_handler", "src/contract.rs: execute", "src/ibc/handshake.rs"]}
{"id": "C72", "title": "The registry is right about the accounts", "statement": "Every controller is listed under exactly one id; its entry has no account until the handshake of that controller completes, and from then on shows the address, encoding and channel the controller itself reports.", "quantifier": "every history of the composed system, every controller", "why_tests_cant": "Relates the storage of two contracts after every interleaving.", "anchors": ["testing/contracts/cw-ica-owner/src/contract.rs: ica_callback_handler", "testing/contracts/cw-ica-owner/src/state.rs: IcaState", "src/ibc/handshake.rs: channel_open_ack"]}
{"id": "C73", "title": "The registry is right about the status of channels", "statement": "The status the registry shows for the channel of an account is the one the controller reports.", "quantifier": "every history of the composed system", "why_tests_cant": "The wrong status appears only after a close or timeout, which the registry does not hear of as such.", "anchors": ["testing/contracts/cw-ica-owner/src/contract.rs: ica_callback_handler", "src/ibc/handshake.rs: channel_close_confirm"]}
{"id": "C74", "title": "Only the admin moves funds", "statement": "Every packet any controller ever sends comes from a send_predefined_action call by the admin of the owner contract naming the id of that controller, and the host reads it as one message: 100 stake from the account listed under that id to the address in the call, on the channel listed there, which is open.", "quantifier": "every history of the composed system, every byte string sent to the contracts", "why_tests_cant": "Quantifies over everything anybody can submit to either contract.", "anchors": ["testing/contracts/cw-ica-owner/src/contract.rs: send_predefined_action", "src/contract.rs: send_cosmos_msgs", "src/ibc/types/packet.rs"]}
{"id": "C75", "title": "One channel per controller", "statement": "A controller owned by the owner contract has at most one channel in its life, and the status it reports for it is the one the chain has; once closed it stays closed and no packet is ever sent again.", "quantifier": "every history of the composed system", "why_tests_cant": "A history property; it also shows that the defects found for general use (C18, C24) cannot occur here.", "anchors": ["testing/contracts/cw-ica-owner/src/contract.rs: execute", "src/contract.rs: create_channel", "src/ibc/relay.rs: ibc_packet_timeout"]}
{"id": "C76", "title": "The owner contract does what it is asked", "statement": "A well-spelled request for a controller succeeds exactly if sent by the admin, the address the chain computes is free, ids are left, the owner contract's address is valid and the port is the standard one, and then a controller with one proposed channel is listed under the next id; a valid answer of the host completes the handshake and fills the entry; a well-spelled request for the action succeeds exactly if sent by the admin for a listed account whose channel is open, with sequence numbers and time left.", "quantifier": "every reachable state of the composed system, every request", "why_tests_cant": "Success must follow from the stated conditions alone in every reachable state.", "anchors": ["testing/contracts/cw-ica-owner/src/contract.rs: create_ica_contract, send_predefined_action, ica_callback_handler", "src/helpers.rs: instantiate2", "src/contract.rs: instantiate"]}
{"id": "C77", "title": "A salt is good for one controller", "statement": "Once a controller has been created with a salt (or, without one, in a given second), every later request that uses the same salt is refused, in every continuation.", "quantifier": "every history of the composed system, every pair of requests", "why_tests_cant": "Ranges over all later histories.", "anchors": ["testing/contracts/cw-ica-owner/src/contract.rs: create_ica_contract", "src/helpers.rs: instantiate2"]}
{"id": "C78", "title": "The owner contract means the same on bytes", "statement": "The owner contract, run on its key-value storage and on JSON texts, has exactly the histories it has on typed values: every accepted text spells a message with the effects and outgoing messages of that message, and every spelling of an acceptable message is accepted.", "quantifier": "every history of texts, senders, uploads and blocks from an empty storage; every spelling", "why_tests_cant": "Ranges over all texts and histories; key collisions and undecodable stored values show only in some of them.", "anchors": ["testing/contracts/cw-ica-owner/src/contract.rs: instantiate, execute", "testing/contracts/cw-ica-owner/src/state.rs: STATE, ICA_STATES, ICA_COUNT, CONTRACT_ADDR_TO_ICA_ID", "testing/contracts/cw-ica-owner/src/msg.rs"]}
{"id": "C79", "title": "The owner contract's queries tell the history", "statement": "After any history, get_contract_state answers the admin and code id given at instantiation, get_ica_count the number of controllers created (and fails before the first), and get_ica_contract_state the address of the controller created under the id together with what that controller last told about an open channel, and fails for every other id. Any other text is refused.", "quantifier": "every history of the owner contract, every text of a query, every id", "why_tests_cant": "The answer must be right after all histories of any length.", "anchors": ["testing/contracts/cw-ica-owner/src/contract.rs: query, query::state, query::ica_state, query::ica_count", "testing/contracts/cw-ica-owner/src/state.rs"]}
{"id": "C80", "title": "Receivers read exactly the documented callbacks", "statement": "A contract that uses the callback macro takes a text for a callback exactly if it is the JSON of a documented callback, and for that one; a receiver without query support likewise, whatever the query result. The callback counter, called with any texts by anybody, answers its query with exactly the callbacks among them, by outcome and in order.", "quantifier": "every byte string, every enum the macro is applied to, every list of calls", "why_tests_cant": "Ranges over all texts and all sequences of calls.", "anchors": ["derive/src/lib.rs: ica_callback_execute", "src/types/callbacks.rs: IcaControllerCallbackMsg", "testing/contracts/callback-counter/src/contract.rs: execute, query", "testing/contracts/cw-ica-owner/src/msg.rs: ExecuteMsg"]}
{"id": "C81", "title": "The reported account is the host's", "statement": "However channels were proposed, opened, closed and opened again, and whatever relayers did: the ICA address the contract reports is the account the host chain keeps for the contract on the connection of the reported channel; the metadata of that channel names the host's own connection; the address told in an OpenAck callback is that account; and on the same connection it is the same address for ever.", "quantifier": "every joint history of the contract, its chain, relayers and conforming host chains", "why_tests_cant": "Depends on handshakes interleaved in any order on two chains.", "anchors": ["src/ibc/handshake.rs: ibc_channel_connect, on_channel_open_ack", "src/types/state.rs: IcaInfo"]}
{"id": "C82", "title": "Hosts execute only what the owner asked for, at most once", "statement": "Every packet a host executes was sent by a transaction of the account that was the owner then; the executed messages are exactly that transaction's messages followed by its queries, under the contract's account; and no packet is executed twice.", "quantifier": "every joint history, every executed packet", "why_tests_cant": "Must hold for all histories of two chains, including changes of owner and channel.", "anchors": ["src/contract.rs: execute::send_cosmos_msgs", "src/ibc/types/packet.rs: IcaPacketData::from_cosmos_msgs", "src/types/cosmos_msg.rs", "src/types/query_msg.rs"]}
{"id": "C83", "title": "Callbacks tell what the host did", "statement": "If the contract's callback tells that a packet succeeded, the host has executed it, with the responses told. If it tells an error or a timeout, the host has not executed it and never will.", "quantifier": "every joint history, every callback", "why_tests_cant": "Ranges over all interleavings of execution, acknowledgement and timeout on two chains.", "anchors": ["src/ibc/relay.rs: ibc_packet_ack, ibc_packet_timeout", "src/types/callbacks.rs: IcaControllerCallbackMsg"]}
{"id": "C84", "title": "Ordered channels keep the order", "statement": "On an ordered channel the host executes packets in the order in which the contract sent them, and skips none: when a packet has been executed, all packets sent before it have been received, and executed or answered with an error.", "quantifier": "every joint history, every pair of packets of an ordered channel", "why_tests_cant": "All interleavings of sends and receipts, any number of packets.", "anchors": ["src/types/msg.rs: ChannelOpenInitOptions.channel_ordering", "src/ibc/types/packet.rs: IcaPacketData::to_ibc_msg"]}
{"id": "C85", "title": "With a conforming host nothing gets stuck", "statement": "In every reachable joint state: a proposal can be taken up by the host; the contract accepts what the host answers (for addresses it takes for addresses); a packet in time and in turn can be executed, the contract's messages and queries being signed by the account; the contract accepts every acknowledgement the host wrote while the channel is open; and it accepts every timeout that can be shown.", "quantifier": "every reachable joint state, every proposal, packet, acknowledgement and timeout in it", "why_tests_cant": "A stuck packet on an ordered channel blocks the account for ever; one must rule it out in all states.", "anchors": ["src/ibc/handshake.rs: ibc_channel_connect", "src/ibc/relay.rs: ibc_packet_ack, ibc_packet_timeout", "src/ibc/types/metadata.rs: IcaMetadata::validate"]}
{"id": "C86", "title": "Query answers come from the host's block", "statement": "For an executed packet with queries the host read exactly the queries of the owner's transaction, in order; and the callback reports the host's answers, one for each query in that order, with the height of the host block in which the packet was executed.", "quantifier": "every joint history, every list of queries, every answer", "why_tests_cant": "All lists of queries, all answers, all histories.", "anchors": ["src/types/query_msg.rs: query_to_protobuf, result_from_response", "src/ibc/relay.rs: ibc_packet_ack::success"]}
{"id": "C87", "title": "Contracts that link the crate build the packets the controller would send", "statement": "IcaPacketData::from_cosmos_msgs in a library build succeeds exactly if the encoding is protobuf and every message and query is of a kind supported by that build (staking and distribution messages and staking queries need the staking feature; they are refused otherwise, never dropped). The host reads from the packet type EXECUTE_TX, the memo, one message per message given, in order and each what was asked for, and, if and only if there are queries, one last safe module query with one request per query in order; to_ibc_msg sends exactly these bytes on the named channel with the given timeout. The packet is the one the controller contract would build.", "quantifier": "every list of messages and queries, both encodings, every memo, address, channel, timeout and block time, all feature sets", "why_tests_cant": "All lists of messages and queries, all feature combinations; the library builds are not compiled by the contract's own tests.", "anchors": ["src/ibc/types/packet.rs: IcaPacketData::from_cosmos_msgs (with and without the query feature), to_ibc_msg", "src/types/cosmos_msg.rs: convert_to_proto_any", "src/types/query_msg.rs: query_to_protobuf"]}
{"id": "C88", "title": "Acknowledgements are read at the right place", "statement": "to_tx_msg_data succeeds exactly on results that decode and returns all responses in order; decode_module_query_safe_resp(i) returns exactly the i-th response, and succeeds exactly if there is one and it decodes. For a packet with n messages and some queries executed by a conforming host, index n holds one answer for each query with the host's height, it is also what decode_module_query_safe_resp_last_index returns, and there is nothing at later indexes.", "quantifier": "every acknowledgement, every index, every packet built by the library and every conforming answer", "why_tests_cant": "All acknowledgement bytes and all indexes.", "anchors": ["src/ibc/types/packet.rs: acknowledgement::Data::to_tx_msg_data, decode_module_query_safe_resp, decode_module_query_safe_resp_last_index"]}
{"id": "C89", "title": "The owner contract's accounts move funds only as the admin asked, end to end", "statement": "When the owner contract creates any number of controllers and each is connected to conforming host chains, everything any host ever executes for any controller is one transfer of 100 stake out of the account the registry lists for that controller to the address given in a send_predefined_action call that the then admin made for that controller; no call is executed twice, so an account loses at most 100 stake per call; and while the channel is open at the host and the packet is in time, not yet received and next in order, the host can execute it.", "quantifier": "every history of the owner contract, its controllers, relayers and hosts (calls by anybody, handshakes, blocks, acknowledgements, timeouts, closings, failures), every controller, every executed packet", "why_tests_cant": "Ranges over all interleavings of any number of controllers, relayers and host chains and all request texts.", "anchors": ["testing/contracts/cw-ica-owner/src/contract.rs: execute::create_ica_contract, execute::send_predefined_action, execute::ica_callback_handler", "src/contract.rs: execute::send_cosmos_msgs", "src/ibc/handshake.rs", "src/ibc/relay.rs"]}
{"id": "C90", "title": "Outstanding packets come to an end while the channel is open, and only closing loses them", "statement": "In every reachable state with conforming host chains, relayers and blocks of the host alone can bring every packet outstanding on an open channel to an end, with the callback contract told about each one; neither the owner nor anyone else has to act. On a closed channel exactly the packets the host has not received can still come to an end; a packet the host has received (executed or failed) stays outstanding for ever and the callback contract is never told about it, whatever anybody does.", "quantifier": "every reachable joint state of contract and host chains, every channel, any number of outstanding packets, every continuation", "why_tests_cant": "A possibility and an impossibility over all histories and continuations with any number of packets in flight.", "anchors": ["src/ibc/relay.rs: ibc_packet_ack, ibc_packet_timeout", "src/contract.rs: execute::close_channel", "src/ibc/handshake.rs: ibc_channel_close"]}
{"id": "C91", "title": "The account can be reached again", "statement": "Whatever has happened, once the contract has had a channel to an interchain account the owner and relayers alone can always bring about a new channel to the same account, with any ordering, reported open and open at both ends, also when the host allows one channel at a time (it refuses a new handshake while the channel whose handshake it completed last is not closed). The account is never locked out for good.", "quantifier": "every reachable joint state of contract and host chains in which the contract reports a channel (open or closed, rightly or not), every ordering, every continuation", "why_tests_cant": "A possibility that must exist in every reachable state, and (where it fails) an impossibility over all continuations.", "anchors": ["src/contract.rs: execute::create_channel, execute::close_channel", "src/ibc/handshake.rs: ibc_channel_open, ibc_channel_connect, ibc_channel_close", "src/types/state.rs: CHANNEL_STATE, ALLOW_CHANNEL_OPEN_INIT"]}
{"id": "C92", "title": "Exactly the allowed transactions are accepted", "statement": "In every reachable state each transaction is accepted exactly when the documented condition holds. The owner can open a channel exactly while none is reported open and with options for the host's ICA port; close exactly while one is reported open; send exactly when the account is known, its channel is open on the chain, the messages and queries are supported and the time-out fits; set a callback address or nominate an owner exactly with valid addresses. The nominee accepts exactly before expiry. Nobody can renounce ownership, migrate to the same version, or open, close or answer handshakes from outside. A handshake answer is accepted exactly when its metadata is valid and names an account, an acknowledgement exactly when the packet is in flight on an open channel and the acknowledgement can be read, a timeout exactly when the packet is in flight. There is no other ground for acceptance or refusal.", "quantifier": "every history from instantiation, every reachable state, every operation with every argument (accepted or refused)", "why_tests_cant": "An equivalence over all states, senders and arguments: tests show single acceptances and refusals, not that no other input is let in and none is blocked.", "anchors": ["src/contract.rs: instantiate, execute, migrate", "src/ibc/handshake.rs: ibc_channel_open, ibc_channel_connect, ibc_channel_close", "src/ibc/relay.rs: ibc_packet_ack, ibc_packet_timeout, ibc_packet_receive"]}
{"id": "C93", "title": "Events are acceptable to the chain", "statement": "Whatever acknowledgement a conforming host writes for a packet of the owner, the event the contract emits on processing it is one that wasmd accepts also in the releases that refuse blank attribute values (type of at least two characters, no blank or reserved key, no blank value), so that the acknowledgement cannot be kept out for its event. Exactly: it is acceptable iff the result is not empty, or the error text not blank.", "quantifier": "every reachable state, every acknowledgement, and every joint history of the contract and conforming hosts", "why_tests_cant": "It ranges over all results a host can return; the failing case (a packet with neither messages nor queries) passes in the tests' environment and fails only on chains that check attribute values.", "anchors": ["src/ibc/types/events.rs: packet_ack::success, packet_ack::error, attributes::from_packet", "src/ibc/relay.rs: ibc_packet_ack", "src/contract.rs: execute::send_cosmos_msgs"]}
{"id": "C94", "title": "Outcomes arrive in order on ordered channels, and a refusing receiver holds them up", "statement": "On an ordered channel the acknowledgements reach the contract, and so the callback contract, in the order in which the packets were sent and with none left out: the delivered sequence numbers are 1, 2, 3, … without gaps. As long as the outcome of one packet has not been delivered (for instance because the callback contract fails on it), no acknowledgement of any later packet of the channel is delivered, whatever the owner, relayers and hosts do.", "quantifier": "every joint history of the contract, conforming hosts and relayers, every ordered channel, every outstanding packet, every continuation", "why_tests_cant": "It is a statement about all interleavings of sends, host executions and relaying; the halting of the channel is about every possible continuation.", "anchors": ["src/ibc/relay.rs: ibc_packet_ack, ibc_packet_timeout", "src/types/callbacks.rs: IcaControllerCallbackMsg", "docs/docs/contract-api/04-callbacks.mdx"]}
{"id": "C95", "title": "From the text the owner signs to what the host executes", "statement": "The end-to-end guarantees hold for the contract as the VM runs it, on raw storage bytes and JSON texts. Every message a host executes stems from a JSON text that spells send_cosmos_msgs with exactly the executed messages and queries, sent by the account that the contract's ownership query named at that time. Every call the contract makes goes to the address named by its get_contract_state query, carries no funds, is the JSON of a documented callback, and is true of the host: a reported success was executed with the reported responses, a reported error or timeout never is executed, a reported account is the host's account. Conversely everything that can happen, from the start or from any state reached with whatever texts, can happen with the JSON the crate writes.", "quantifier": "every joint history of the contract on raw storage, arbitrary message bytes, conforming hosts and relayers", "why_tests_cant": "It composes the JSON reader, the storage codec, the encoder and the packet life cycle over all texts and all interleavings.", "anchors": ["src/contract.rs: instantiate, execute, query", "src/ibc/relay.rs", "src/types/msg.rs", "src/types/state.rs"]}
{"id": "C96", "title": "What the admin of the owner contract asked for can always come to an end", "statement": "While the channel of a controller created by the owner contract is open, relayers delivering acknowledgements and timeouts and the host making blocks suffice to bring every outstanding packet of that controller to an end, and the owner contract is called with the outcome of each of them. No other account has to do anything, no acknowledgement and no state of the owner contract or of its other controllers can prevent it, and neither the other controllers nor the admin of the owner contract change.", "quantifier": "every joint history of the owner contract, any number of controllers, conforming hosts and relayers, and every controller whose channel is open", "why_tests_cant": "Whether the chain of calls controller to owner contract can get stuck depends on every reachable state of both contracts and every content of the packets.", "anchors": ["testing/contracts/cw-ica-owner/src/contract.rs: execute::ica_callback_handler", "src/ibc/relay.rs: ibc_packet_ack, ibc_packet_timeout", "src/types/callbacks.rs"]}
{"id": "C97", "title": "While the channel works, whatever the owner asks for can be done and is answered", "statement": "In every reachable state in which the contract reports its channel open and the channel is open at both ends (on an ordered channel: with no packet on its way), the owner can have any request of supported messages and queries carried out that is in time: the contract sends it, the host can read it as exactly that request and execute it or fail it with any outcome, the contract accepts the host's acknowledgement, the callback contract is told that outcome, and the channel works as before. So any sequence of requests can be executed one after the other.", "quantifier": "every reachable joint state of contract and host chains with a working channel, every request of supported messages and queries, every outcome and every acknowledgement that states it, any number of requests in a row", "why_tests_cant": "It must hold in every reachable state, for every request and every outcome; a test tries one request from one state.", "anchors": ["src/contract.rs: execute::send_cosmos_msgs, reply", "src/ibc/relay.rs: ibc_packet_ack", "src/ibc/types/packet.rs", "src/types/cosmos_msg.rs"]}
{"id": "C98", "title": "Answers of newer hosts are reported like those of the known version", "statement": "If the answers of the host carry fields this version of the contract does not know, or the fields in another order, at any depth of the message, then they are reported in the callback exactly like the answers without those differences: the acknowledgement is processed in both cases, leaves the contract in the same state, and the query result is the same. The same holds for such differences in the result of the transaction that carries the answers. Answers to stargate queries are excepted, for they are passed on as they are.", "quantifier": "every supported query, every pair of answers differing only in unknown fields (records and groups) and order of fields, every history of the contract and every packet in flight", "why_tests_cant": "tests feed the decoders a handful of encoded answers of the known version; unknown fields may have any number, type, content, nesting and position", "anchors": ["src/types/query_msg.rs: result_from_response, from_protobuf", "src/ibc/types/packet.rs: decode_module_query_safe_resp_last_index", "src/ibc/relay.rs: ibc_packet_ack::success"]}
{"id": "C99", "title": "A lost channel does not mean lost funds", "statement": "Whatever became of the contract's channel (closed by the owner, closed by a timeout, reported wrongly), as long as no other channel of its connection is open, the owner and relayers can bring about a new channel to the same interchain account, with any ordering and also when hosts allow one channel at a time, and over it every request the owner then makes, any number of them, can be executed under that account with its outcome told to the callback contract.", "quantifier": "every reachable joint state of the contract and conforming hosts in which a channel is reported, every choice of ordering, every list of requests of supported messages and queries", "why_tests_cant": "tests reopen a channel once after one kind of closure; what had happened before, what was in flight and what is asked afterwards is unbounded", "anchors": ["src/contract.rs: execute::create_channel, execute::close_channel, execute::send_cosmos_msgs", "src/ibc/handshake.rs: ibc_channel_open, ibc_channel_connect, ibc_channel_close", "src/ibc/relay.rs"]}
{"id": "C100", "title": "The Go client says what the program means", "statement": "A call made with the Go client that comes with the repository (instantiate, execute and query, of the controller and of the owner contract) is read by the contract as exactly the message the Go value stands for: exactly one alternative of every union is set, numbers, amounts and bytes are the same, nil and empty slices are treated as the contract's documentation says. Values that stand for no message are refused. The helper that takes protobuf messages sends exactly these, in order.", "quantifier": "every value of the Go message types, including strings with characters Go escapes, nil pointers and nil slices, and every state of the contract", "why_tests_cant": "the e2e tests send a few dozen fixed messages and never offer the ownership; the claim is about all values of some eighty generated types", "anchors": ["e2e/interchaintestv8/types/contract.go: toString", "e2e/interchaintestv8/types/cwicacontroller/msgs.go", "e2e/interchaintestv8/types/cwicacontroller/helpers.go", "e2e/interchaintestv8/types/cwicacontroller/query.go", "e2e/interchaintestv8/types/cwicaowner/msgs.go", "src/types/msg.rs: ExecuteMsg"]}
{"id": "C101", "title": "Tokens handed to a contract stay there", "statement": "The controller and the owner contract accept tokens attached to any of their calls (a call that succeeds without them succeeds with them and does the same), and nothing anybody does afterwards, the owner included, moves a token out: at any time each contract holds exactly what it was given. Only the interchain account on the host chain can be spent from; tokens attached by mistake are lost unless the code is replaced.", "quantifier": "every history of calls, relayed packets and deposits, with any coins attached to any call, from any state", "why_tests_cant": "that no later call returns the tokens is a statement about all histories and all messages the owner can send", "anchors": ["src/contract.rs: instantiate, execute", "src/helpers.rs", "src/ibc/relay.rs", "testing/contracts/cw-ica-owner/src/contract.rs: execute"]}
{"id": "C102", "title": "The admin's actions can be carried out and are answered", "statement": "For the owner contract, its controllers and conforming hosts: whenever the account of a controller works, the admin's send_predefined_action goes through; the host can execute it or refuse it, and either outcome is brought back and told to the owner contract, which never blocks it. Any number of actions on any controllers in any order can be carried out so: each is executed once, in order, from the right account to the right address, and nothing else is executed.", "quantifier": "every reachable state of the owner contract with all its controllers and hosts, every text of the call, every outcome, acknowledgement and relayer; every list of actions", "why_tests_cant": "the e2e tests perform one action on one controller; the claim is about every reachable state, every interleaving of controllers and any number of actions", "anchors": ["testing/contracts/cw-ica-owner/src/contract.rs: send_predefined_action, ica_callback_handler", "src/contract.rs: send_cosmos_msgs", "src/ibc/relay.rs: ibc_packet_ack"]}
{"id": "C103", "title": "What the Go client reads in an answer is what the contract answered", "statement": "For every state of the contract: if the contract answers a query, then the Go client's method for this query returns a Go value that stands for this answer, and a Go value stands for one answer only; if the contract does not answer, the method returns an error. The same holds for the owner contract (administrator and code, number of controllers, registry entry) and for the callback counter (all callbacks, in order and sorted by outcome, with the bytes in them readable). Exceptions, which give an error and never a wrong value: numbers of 2^63 or more (an ownership offer that ends at such a height, a code id or count of that size, any such number in a callback), and requests that are nil. The Go value of an absent answer to a wasm query does not say which of the three questions it answers.", "quantifier": "every content of the controller's storage and every text of the query; every history of the owner contract; every sequence of texts the counter is called with", "why_tests_cant": "the e2e tests read a few answers with small numbers and one kind of callback; the claim is about every answer a contract can give, all variants, absent fields and all sizes of numbers", "anchors": ["e2e/interchaintestv8/types/cwicacontroller/query.go: GetContractState, Ownership, GetChannel", "e2e/interchaintestv8/types/cwicaowner/query.go", "e2e/interchaintestv8/types/callbackcounter: query.go, helpers.go", "src/contract.rs: query"]}
{"id": "C104", "title": "A query for all coins or all delegations of an account reports all of them", "statement": "If a packet asks for all coins or all delegations of an account, and the host executes it and answers from its books (page by page, as Cosmos SDK modules do), then the callback contract is told every coin (every delegation) of the account. What holds: the first hundred are told, exactly, in order and as a success; so all of them if there are at most a hundred.", "quantifier": "every history of the joint system of contract, chain, relayers and hosts; every content of the host's books; every list of queries in the packet", "why_tests_cant": "the e2e tests ask about accounts with one or two coins; the claim is about accounts of any size, and a host's default page only matters beyond its size", "anchors": ["src/types/query_msg.rs: convert_to_protobuf::bank (AllBalances, pagination: None), convert_to_protobuf::staking (AllDelegations)", "src/types/query_msg.rs: from_protobuf::bank_response, from_protobuf::staking_response"]}
{"id": "C105", "title": "Denominations can be gone through page by page", "statement": "A contract that asks for the descriptions of all denominations page by page (any page size, either direction), each page from the key that came with the page before, as long as such a key is reported, is told every description once, in order. What holds: this is so if it also stops at an empty key, which is reported exactly with the last page; a key is always reported.", "quantifier": "every history of the joint system, every list of descriptions in the host's books, every page size and direction, every number of pages", "why_tests_cant": "no test asks for a second page; the claim is about lists of any length and any number of pages", "anchors": ["src/types/query_msg.rs: convert_to_protobuf::bank (AllDenomMetadata)", "src/types/query_msg.rs: from_protobuf::bank_response (ALL_DENOM_METADATA, next_key)"]}
{"id": "C106", "title": "A query for all validators reports the active set", "statement": "If a packet asks for all validators (which cosmwasm-std documents as the currently active set) and the host answers from its books, the callback contract is told the addresses of the active validators. What holds: it is told the first hundred validators of any status, in order; so the active set if all validators are active and there are at most a hundred.", "quantifier": "every history of the joint system, every list of validators with their status in the host's books", "why_tests_cant": "the e2e chain has active validators only, and fewer than a hundred", "anchors": ["src/types/query_msg.rs: convert_to_protobuf::staking (AllValidators, status empty, pagination: None)", "src/types/query_msg.rs: from_protobuf::staking_response"]}
{"id": "C107", "title": "A mistaken proposal does no harm", "statement": "If the channel options of an instantiation or a CreateChannel name a counterparty_connection_id that is not the host's, the channel they propose is never opened, never reported, and no host has an end for it. As long as no channel is reported open and none is open on the connection, whatever happened before, the owner can create a channel with the right options, relayers can complete its handshake (to the account the host already keeps for the contract, or to a new one), and then everything the owner asks for can be carried out and is answered. A channel proposed with the right options in the first place can be opened by relayers alone.", "quantifier": "every history of the joint system, all channel options, all connections, every continuation; any number of mistakes; every list of supported requests", "why_tests_cant": "never opened is about all continuations with all relayers; that starting over works must hold after every history of mistakes", "anchors": ["src/contract.rs: instantiate, execute::create_channel", "src/types/msg.rs: options::ChannelOpenInitOptions", "src/ibc/types/stargate.rs: channel::new_ica_channel_open_init_cosmos_msg", "src/ibc/handshake.rs: ibc_channel_open::on_acknowledgement", "docs/docs/contract-api/01-instantiate-msg.mdx: counterparty_connection_id"]}
{"id": "C108", "title": "Closed for good", "statement": "After the owner has closed the channel, the contract has no open channel, reports none and sends nothing until the owner creates another one, whatever relayers and counterparties do. What holds: every channel that is open later was open or being opened before, or was created by the owner since; and if no other channel is open or being opened when the channel is closed, nothing opens until the owner creates a channel.", "quantifier": "every reachable state, every continuation", "why_tests_cant": "quantifies over everything relayers may do for ever after", "anchors": ["src/contract.rs: execute::close_channel, execute::create_channel", "src/ibc/handshake.rs: ibc_channel_open, ibc_channel_close", "docs/docs/how-it-works/02-go-vs-cosmwasm.mdx: Permanent channel closure"]}
{"id": "C109", "title": "Whatever a host answers is reported as it reads, or as an error", "statement": "Whatever bytes come back as the answers to the queries of a packet, also from a host of another version or a faulty one, the callback reports success exactly if there is one answer per query and every answer can be read as the answer to its query: it is a message that fits the published protobuf definition, unknown fields apart, and its amounts and rates are numbers. Then what is reported is exactly what the answers say, field by field and in the order of the queries, with default values for missing fields; no byte string says two things. If one of the answers cannot be read, the callback reports an error and nothing of the others.", "quantifier": "every history, every packet with queries, every result acknowledgement with arbitrary answer bytes", "why_tests_cant": "quantifies over all byte strings a host may answer with, conforming or not", "anchors": ["src/types/query_msg.rs: from_protobuf, result_from_response, convert_to_coin, convert_to_metadata, convert_to_validator", "src/ibc/relay.rs: ibc_packet_ack::success"]}
{"id": "C110", "title": "The books of a contract that is told every outcome balance", "statement": "Suppose a freshly instantiated callback counter is the callback address whenever a packet is settled (for instance because nobody sets another). Then, after any history, each packet is on its lists of successes, errors and timeouts at most once; the packets on the lists are exactly those that were sent and have been acknowledged or have timed out, so a sent packet that is on none of them is exactly one that is still outstanding. The lists are true: the host has executed every packet listed as a success, and never executes one listed as an error or a timeout, whatever happens later.", "quantifier": "every history of transactions with reentrant callbacks, every joint history of the contract and conforming hosts with every continuation, every packet, every storage of the counter", "why_tests_cant": "ranges over all interleavings of sends, executions, acknowledgements, timeouts and closings, with any number of packets; a test looks at a few packets one after the other", "anchors": ["src/ibc/relay.rs: ibc_packet_ack, ibc_packet_timeout", "src/types/callbacks.rs: IcaControllerCallbackMsg", "testing/contracts/callback-counter/src/contract.rs", "testing/contracts/callback-counter/src/state.rs"]}
{"id": "C111", "title": "The contract is exactly the machine described on one page", "statement": "There is a complete description of the contract in terms of what is seen from outside: the owner, the offer of ownership, the callback address, the account, the reported channel, the channels on the chain, and the packets in flight with their queries; with thirteen rules that say which transactions are carried out, what they change, and what is then seen (the event, the packet and what the host reads in it, the call of the callback contract and what it says). Every history of the contract is a history of this machine; afterwards the three queries answer what the machine shows and the contract accepts exactly the transactions the machine carries out; and every sequence of transactions the machine carries out the contract accepts, with the same effect. Nothing else ever happens.", "quantifier": "every history, every transaction, every text of a message or query, every acknowledgement, every storage", "why_tests_cant": "says of all inputs in all reachable states both what happens and that nothing else happens; tests can only confirm single runs", "anchors": ["src/contract.rs: instantiate, execute, query, migrate", "src/ibc/handshake.rs", "src/ibc/relay.rs", "src/types/state.rs", "src/types/msg.rs", "src/types/callbacks.rs"]}
{"id": "C112", "title": "The owner contract is exactly the machine described on one page", "statement": "There is a complete description of the owner contract in terms of what is seen from outside: its admin and the code it uses, and the list of its controllers with the account each reported last; with eight rules that say which transactions are carried out, what they change and which messages are sent (where a new controller is put, what its first message says, what a controller is asked to send). Every history of the contract, for any texts, is a history of this machine with the same messages; afterwards its three queries answer what the machine shows, and it accepts exactly the transactions the machine carries out; every sequence of transactions the machine carries out the contract accepts, with the same effect; and the transactions alone determine the state.", "quantifier": "every history, every transaction, every text of a message or query, every time, salt, code table and address function of the chain", "why_tests_cant": "says of all inputs in all reachable states both what happens and that nothing else happens; tests can only confirm single runs", "anchors": ["testing/contracts/cw-ica-owner/src/contract.rs: instantiate, execute, query, create_ica_contract, send_predefined_action, ica_callback_handler", "testing/contracts/cw-ica-owner/src/state.rs", "testing/contracts/cw-ica-owner/src/msg.rs", "src/helpers.rs: CwIcaControllerCode::instantiate2, CwIcaControllerContract::execute"]}
{"id": "C113", "title": "Whoever is refused is told why, and nothing else is refused", "statement": "In every state that the contract can reach, whatever it refuses, it answers with the sentence that belongs to the first thing that is wrong, checked in a fixed order that is written down: for every message of a user (not understood; not the owner; no channel; channel not open; no interchain account; an address the chain does not accept; nobody, somebody else or too late to accept ownership; ownership cannot be renounced), for an instantiation, for the channel that the owner asked for (host port; a channel is open already), for a channel that a relayer opens or closes, for the answer of the host (metadata not understood; version, connection, encoding, address, transaction type), for a channel the host has closed, and for a migration to the same version. If nothing on the list is wrong, the call is not refused. It aborts exactly for packets of the owner that contain a message or query without a counterpart on the host or that would time out after the end of time. What is said is determined by what users see of the contract.", "quantifier": "every history, every text, sender, channel, counterparty version, time and address function of the chain", "why_tests_cant": "each test sees one mistake at a time; the claim is about every combination of mistakes in every reachable state, and that there is no other reason to refuse", "anchors": ["src/types/error.rs", "src/contract.rs: execute, instantiate, migrate", "src/ibc/handshake.rs", "src/ibc/types/metadata.rs: IcaMetadata::validate"]}
{"id": "C114", "title": "What the storage holds is known from the history, and only queries make it grow", "statement": "After every history, the keys in the contract's storage are exactly these: five single values that are there since the instantiation, the channel once one has been opened, a flag once the owner has closed one, and one record (at a key built from the channel and the number of the packet) for every packet that was sent with queries and has met neither a success acknowledgement nor its timeout. The scratch value of a transaction never remains. So however long the history, there are never more keys than seven plus one for each packet sent with queries; and a record is there only while its packet is in flight or after an error acknowledgement.", "quantifier": "every history, every text of a message, every relayer behaviour, every key", "why_tests_cant": "a test can look for the keys it knows of; that there is no other key after any history is a statement about all keys and all histories", "anchors": ["src/types/state.rs: STATE, CHANNEL_STATE, CHANNEL_OPEN_INIT_OPTIONS, ALLOW_CHANNEL_OPEN_INIT, ALLOW_CHANNEL_CLOSE_INIT, QUERY, PENDING_QUERIES", "src/contract.rs: reply", "src/ibc/relay.rs"]}
{"id": "C115", "title": "The owner contract refuses exactly for listed reasons and says which", "statement": "After every history of the owner contract, every call to it is answered as a short list says. A text that is no message is not understood. A user who is not the admin is told unauthorized, before anything else is looked at; the admin is told that there is no place for a new controller exactly if the chain has no address for it (unknown code, bad salt, bad creator), and that nothing is there exactly if the number of the controller has not been given out. A message of a controller is accepted from every contract that was created and refused, as not found, for everyone else. The one call that cannot be carried out at all is the creation of one controller more than there are numbers. An instantiation is refused exactly for an unreadable text or an admin address the chain does not accept.", "quantifier": "every history of the owner contract, every sender, every text of a message, every storage for the instantiation", "why_tests_cant": "a test tries one sender and one message in one state; that no other call is refused, in any state, and that the first applicable reason is the one reported, ranges over all of them", "anchors": ["testing/contracts/cw-ica-owner/src/contract.rs: instantiate, execute, create_ica_contract, send_predefined_action, ica_callback_handler", "testing/contracts/cw-ica-owner/src/state.rs: ContractState::verify_admin"]}
{"id": "C116", "title": "What the owner contract stores is known from the history", "statement": "After every history, the owner contract's storage is exactly this and nothing else: its admin and the code of its controllers; the number of controllers created, once there is one; for each controller its record (address, the account it controls, the state of its channel) at a key built from its number; and for each controller's address its number. Each value is the text of what the machine of C112 shows after the same history.", "quantifier": "every history of the owner contract (calls in bytes, by users and by controllers), every key", "why_tests_cant": "a test can look for the keys it knows of and compare their values after one history; that there is no other key and no other value after any history is a statement about all keys and all histories", "anchors": ["testing/contracts/cw-ica-owner/src/state.rs: STATE, ICA_STATES, ICA_COUNT, CONTRACT_ADDR_TO_ICA_ID", "testing/contracts/cw-ica-owner/src/contract.rs: instantiate, create_ica_contract, ica_callback_handler"]}
{"id": "C117", "title": "What each stored value says is known from what has been seen", "statement": "After every history, what stands under each key of the contract's storage is the JSON text of what the machine of C111 shows after the same history: the name and version of the contract, the ownership with a pending offer, the account and the callback contract, the options for the next channel, the tracked channel, and for each packet sent with queries that has met neither a success acknowledgement nor its timeout the paths of its queries in order. The two permissions for a handshake are stored as false between any two transactions. There is nothing else. So the storage, byte for byte up to the choice of the JSON text, depends on nothing but what has been seen from outside.", "quantifier": "every history, every text of a message, every relayer behaviour, every key", "why_tests_cant": "a test compares some values after one history; that no history leaves a stale or a foreign value under any key is a statement about all histories and all keys", "anchors": ["src/types/state.rs: STATE, CHANNEL_STATE, CHANNEL_OPEN_INIT_OPTIONS, ALLOW_CHANNEL_OPEN_INIT, ALLOW_CHANNEL_CLOSE_INIT, QUERY, PENDING_QUERIES", "src/contract.rs: instantiate, execute, reply, migrate", "src/ibc/handshake.rs", "src/ibc/relay.rs"]}
{"id": "C118", "title": "When outcomes are brought does not matter", "statement": "Take any history from a reachable state made of acknowledgements, timeouts and transactions that have nothing to do with outcomes: blocks, requests of the owner to send, changes of the ownership, proposed and completed handshakes. Move the acknowledgements about as you like, each staying behind the sending of its packet (and the timeouts too, if the channels are unordered; on an ordered channel a timeout closes the channel). (The chain itself takes acknowledgements of ordered channels in turn and so allows fewer rearrangements; the statement covers them all.) Then every transaction is accepted exactly as before, shows exactly what it showed before, and the end is the same state. Changing the callback address is not such a transaction, and cannot be: the same acknowledgement is then told to the old callback contract or to nobody, depending on which comes first.", "quantifier": "every reachable state, every history of the kind, every rearrangement of its outcomes behind their packets", "why_tests_cant": "relayers deliver in any order and at any time; a test fixes one schedule, and the number of schedules grows as the factorial of the number of outcomes", "anchors": ["src/ibc/relay.rs: ibc_packet_ack, ibc_packet_timeout", "src/contract.rs: execute", "src/ibc/handshake.rs: ibc_channel_open_ack"]}
{"id": "C119", "title": "Controllers of one owner contract do not disturb each other", "statement": "Take any history of the owner contract together with all its controllers and their host chains, and interleave it differently, so that for every controller the transactions that concern it (what relayers or others submit for it, what its hosts do, the actions the admin asks it for) stay in their order; blocks and creations concern all controllers. Then every transaction is accepted as before and shows the same, and the end is the same: every controller, every host, the registry. And a transaction that does not concern a controller leaves it as it is, and its hosts, and its entry in the registry.", "quantifier": "every reachable state of the joint system with any number of controllers, every continuation, every other interleaving of it", "why_tests_cant": "the number of interleavings of independent controllers is beyond any test, and a test with one controller cannot see interference at all", "anchors": ["testing/contracts/cw-ica-owner/src/contract.rs: execute, ica_callback_handler", "testing/contracts/cw-ica-owner/src/state.rs: ICA_STATES, CONTRACT_ADDR_TO_ICA_ID", "src/contract.rs: execute", "src/ibc/relay.rs", "src/ibc/handshake.rs"]}
{"id": "C120", "title": "A call sees and changes only a few named entries of the storage", "statement": "On any storage whatsoever, well-formed or not: which entries a call can depend on and which it can change is a fixed short list for each kind of call (for a packet: the contract state, the channel for a timeout, and the record of that very packet). With any other storage that has the same under the keys looked at, the outcome is the same, what is written is the same, and everything outside the keys written stays. So an acknowledgement or a timeout is dealt with in the same way whatever records of other packets there are, however many and whether or not they can be read; a query depends on the one value it asks for; a text that cannot be read is refused without a look at the storage. The same for the owner contract: at most four entries are looked at and three written, however many controllers there are.", "quantifier": "every storage of bytes, every pair of storages that agree where the call looks, every message, packet, acknowledgement and sender", "why_tests_cant": "a test runs a call on one storage; independence of the rest of the storage is a statement about pairs of storages of any size and any contents", "anchors": ["src/contract.rs: instantiate, execute, reply, query, migrate", "src/ibc/handshake.rs: ibc_channel_open, ibc_channel_connect, ibc_channel_close", "src/ibc/relay.rs: ibc_packet_ack, ibc_packet_timeout, ibc_packet_receive", "src/types/state.rs", "testing/contracts/cw-ica-owner/src/contract.rs"]}
{"id": "C121", "title": "One interchain account", "statement": "A contract creates and manages one interchain account, ever (README). What holds: on each connection it is one account, which executes everything the hosts execute for the contract there; a host has an account for the contract only if the contract was told its connection, at instantiation or in a CreateChannel; so a contract that was told one connection has one account, the one it reports. A contract whose owner names further connections has an account on each: as long as every open channel is the reported one, the owner can use any number of accounts in turn and come back to earlier ones, and every request is executed by the account of its turn.", "quantifier": "every history of the contract, relayers and conforming hosts; every plan of the owner of any length", "why_tests_cant": "that there is never a second account is about all histories; that every plan can be gone through is about plans of any length from any state", "anchors": ["README.md: Limitations", "src/contract.rs: execute::create_channel", "src/ibc/handshake.rs: ibc_channel_connect", "src/types/state.rs: ContractState"]}
{"id": "C122", "title": "An upgrade in the middle of its life changes nothing else", "statement": "If the storage of a contract says that an earlier version of this program has left it, and this version reads its values as those of a state a contract of this version can come to, then the migration is accepted in any such state (with channels open, closed or half open, packets and queries in flight, a nomination of a new owner pending), calls nobody, and leaves exactly that state; the program also serves the contract before the migration, in every transaction as after it. Every history of such a contract, with the migration at any point or never made, is a history of a contract of this version with the migration left out: same observations, same final state; and the migration can be put at any point of any history, once. If the earlier storage has no record of an owner where this version looks for it, the migration makes none: no message of any user is ever accepted again.", "quantifier": "every reachable state, every earlier version, every history from there, every point of it for the migration, every way in which the bytes may be written", "why_tests_cant": "a test upgrades one contract in one state and looks at a few later calls; this is about the upgrade at any point of any history and everything after it", "anchors": ["src/contract.rs: migrate", "src/contract.rs: migrate::validate_semver", "src/contract.rs: migrate::validate_channel_encoding", "src/types/state.rs: STATE", "Cargo.toml: version"]}
{"id": "C123", "title": "How stored values are written makes no difference; members of earlier releases are ignored", "statement": "Take two contracts on the same chain whose storages hold the same values, whatever JSON text each has for them (order of members, white space, and in the remembered channel options and the contract state any further members, such as the tx_encoding and allow_channel_open_init that earlier releases stored). The same transactions are accepted by both with the same observations, failed calls fail with the same error, queries give the same bytes, and this stays so in every history; values that are unreadable in both count as the same. The channel, the ICA info, the ownership and the version are read strictly: a text with a further member is not read. What is stored under other keys makes no difference either. The same holds of the owner contract: two owner contracts on the same chain whose storages read alike send the same messages in every history and answer every query with the same bytes.", "quantifier": "all pairs of storages that read alike (reachable or not, readable or not), all chains, all transactions and histories, all JSON objects", "why_tests_cant": "The repository's tests store values only in the form this version writes them; the ways other releases may have written them, and the histories after an upgrade, are unlimited.", "anchors": ["src/types/state.rs: STATE, CHANNEL_OPEN_INIT_OPTIONS, ContractState, IcaInfo, ChannelState", "src/types/msg.rs: ChannelOpenInitOptions", "src/contract.rs: migrate, create_channel", "testing/contracts/cw-ica-owner/src/state.rs: STATE, ICA_STATES, ICA_COUNT, CONTRACT_ADDR_TO_ICA_ID"]}
{"id": "C124", "title": "Every script of the kind of the end-to-end tests can be played and ends as expected", "statement": "Anybody can instantiate the contract for an owner, with the callback counter as callback contract, and relayers can complete the handshake; then any script can be played, in any order and of any length, made of these scenes: a request that the host executes, a request that the host fails with some error, a request that no relayer brings in time, the owner closing the channel, and the owner reopening it, with the last options or with others for the same connection. It takes only messages of the owner, relayers and hosts that keep to the one-channel rule, and blocks. At the end the contract, the chains and the counter show what one expects: the owner and the callback address are as before; the options are the last ones given; the channel is reported open exactly if no close and no timeout on an ordered channel came after the last opening, and then it is open at both ends, with the ordering asked for, to the same account, and the next packet has the expected sequence number; no other channel is open; the counter's query shows as many successes and timeouts as were played and the errors that were played, in order; and the host has executed exactly the requests that were to be executed, in order, by the account.", "quantifier": "all scripts of any length, all supported requests and errors, all casts (owner, counter, connection, account), all options, all initial chains; also from every state that shows a stage, whatever happened before", "why_tests_cant": "Each end-to-end test plays one fixed script (for instance a timeout, a reopening and a request) with fixed requests; the scripts are unlimited, and what comes after a closing or a timeout depends on all that came before.", "anchors": ["src/contract.rs: instantiate, execute, create_channel, close_channel, send_cosmos_msgs", "src/ibc/handshake.rs: ibc_channel_connect, ibc_channel_close", "src/ibc/relay.rs: ibc_packet_ack, ibc_packet_timeout", "testing/contracts/callback-counter/src/contract.rs: execute, query", "e2e/interchaintestv8/contract_test.go: TestIcaContractExecution_Ordered_Protobuf, TestIcaContractTimeoutPacket_Ordered_Protobuf, TestIcaContractTimeoutPacket_Unordered_Protobuf, TestMigrateOrderedToUnordered, TestCloseChannel_Protobuf_Unordered"]}
{"id": "C125", "title": "A client of an earlier release is understood in what is still offered and refused in what is not", "statement": "Of the options in an instantiation or in a request for a new channel only the four members they have today count: a text with any further members, such as the `tx_encoding` of earlier releases with whatever value, or with the members in another order, does exactly what the text without them does, from every stored state and for every sender: same response or error, same storage. A request to send that has no `queries` member does exactly what the request with an empty list (or null) of queries does. A text that names a call the contract does not have is refused and changes nothing, and so is one with a further member anywhere else in a message, or an instantiation without options. Votes are the exception: their form changed with the messages of CosmWasm 2, and the earlier one is refused (C128).", "quantifier": "every text of a call and every text that differs from it in the ways named, every sender, environment and storage, also storages no history of this contract leads to", "why_tests_cant": "tests send messages made by the current client types, which cannot be written in the words of an earlier release; the claim is about all texts, all further members and all storages", "anchors": ["CHANGELOG.md", "src/types/msg.rs: InstantiateMsg, ExecuteMsg, options::ChannelOpenInitOptions", "src/contract.rs: instantiate, execute"]}
{"id": "C126", "title": "Trying again until it is done does it once", "statement": "If requests that mean the same thing (in whatever words, with whatever timeout, over whatever channel) are sent again only after the callback contract was told that the earlier ones failed, by an error or a timeout, then in all at most one of them is ever executed by a host. Once it is told that one of them succeeded, that one was executed, with the responses told, and no other was. And while the channel works such an owner can go on: whatever errors the next attempts end with, and however many there are, the one after them can succeed, each outcome is told, and there is exactly one execution.", "quantifier": "every set of messages that count as the same request, every history of the controller chain and the host chains in which they are sent patiently, every number of failed attempts and every error", "why_tests_cant": "exactly-once execution under retries is a property of whole histories with any number of attempts, failures, timeouts and channels; a test plays one of them", "anchors": ["src/contract.rs: execute, send_cosmos_msgs", "src/ibc/relay.rs: ibc_packet_ack, ibc_packet_timeout", "src/types/callbacks.rs: IcaControllerCallbackMsg"]}
{"id": "C127", "title": "Callback contracts that call back change nothing of the end-to-end guarantees", "statement": "Let callback contracts run when they are called: fail, or make transactions of their own within the call, as deep as they like, among them calls of this contract. Whatever they do, what happened on the controller chain and the host chains is a history in which they were only told, with the same transactions in the same order. So hosts execute only what the owner asked for and no packet twice, callbacks (also those within other callbacks) tell what the host did, and the reported account is the one the host has.", "quantifier": "every history of the controller chain and the host chains, every behaviour of the callback contracts in every call, to every depth of nesting", "why_tests_cant": "the repository's tests have callback contracts that only count; re-entrant behaviour is unbounded in depth and in what is called", "anchors": ["src/ibc/relay.rs: ibc_packet_ack, ibc_packet_timeout", "src/ibc/handshake.rs: ibc_channel_connect", "src/types/callbacks.rs: IcaControllerCallbackMsg", "src/contract.rs: execute"]}
{"id": "C128", "title": "The README's example does what the README says", "statement": "The message printed in the README delegates tokens and then votes, in one packet. As printed this is false: the member that holds the vote is called `option` since v0.20.0 and the README still says `vote`, so the contract refuses the message, whoever sends it and in every state. The same holds of every request to send that has a vote without a member `option` anywhere among its messages: it is refused as a whole and changes nothing. What holds: with `option` for `vote`, for every validator, coin, proposal and vote, in whatever way the text is written, the message is understood, and while the channel works the owner can send it; the packet then holds the delegation and the vote by the interchain account, in this order, and nothing else.", "quantifier": "every sender, environment and storage for the refusals; every reachable joint state with a working channel, every validator, coin, proposal, vote and every text of the message for the rest", "why_tests_cant": "the end-to-end tests build messages with client types generated from the schema and so never send the documented text; that no state and no surrounding message makes the old form acceptable is a statement about all of them", "anchors": ["README.md: 150-175", "src/types/msg.rs: ExecuteMsg::SendCosmosMsgs", "src/types/cosmos_msg.rs: gov", "e2e/interchaintestv8/types/cwicacontroller/msgs.go: GovMsg_Vote"]}
