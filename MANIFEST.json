{
 "claims": [
  {
   "property": "C01",
   "status": "proved",
   "theorems": [
    "Ica.C01_only_owner_executes",
    "Ica.C01_only_owner_acts"
   ],
   "note": ""
  },
  {
   "property": "C02",
   "status": "proved",
   "theorems": [
    "Ica.C02_two_step_handover"
   ],
   "note": ""
  },
  {
   "property": "C03",
   "status": "proved",
   "theorems": [
    "Ica.C03_always_an_owner",
    "Ica.C03_owner_for_ever",
    "Ica.C03_no_renounce"
   ],
   "note": ""
  },
  {
   "property": "C04",
   "status": "proved",
   "theorems": [
    "Ica.C04_accept_iff_unexpired",
    "Ica.C04_only_nominee",
    "Ica.C04_lapsed_for_ever"
   ],
   "note": ""
  },
  {
   "property": "C05",
   "status": "proved",
   "theorems": [
    "Ica.C05_instantiation",
    "Ica.C05_instantiate_iff"
   ],
   "note": ""
  },
  {
   "property": "C06",
   "status": "proved",
   "theorems": [
    "Ica.C06_relayer_cannot_open"
   ],
   "note": ""
  },
  {
   "property": "C07",
   "status": "proved",
   "theorems": [
    "Ica.C07_relayer_cannot_close"
   ],
   "note": ""
  },
  {
   "property": "C08",
   "status": "proved",
   "theorems": [
    "Ica.C08_one_channel_per_authorisation"
   ],
   "note": ""
  },
  {
   "property": "C09",
   "status": "proved",
   "theorems": [
    "Ica.C09_no_second_handshake"
   ],
   "note": ""
  },
  {
   "property": "C10",
   "status": "proved",
   "theorems": [
    "Ica.C10_own_proposal",
    "Ica.C10_instantiate_sends",
    "Ica.C10_create_sends",
    "Ica.C10_instantiate_proposes",
    "Ica.C10_create_proposes"
   ],
   "note": ""
  },
  {
   "property": "C11",
   "status": "proved",
   "theorems": [
    "Ica.C11_accepts_own_proposal",
    "Ica.C11_create_commits"
   ],
   "note": ""
  },
  {
   "property": "C12",
   "status": "proved",
   "theorems": [
    "Ica.C12_accepted_open_init",
    "Ica.C12_open_init_accepts",
    "Ica.C12_empty_version"
   ],
   "note": ""
  },
  {
   "property": "C13",
   "status": "proved",
   "theorems": [
    "Ica.C13_open_ack_iff"
   ],
   "note": ""
  },
  {
   "property": "C14",
   "status": "proved",
   "theorems": [
    "Ica.C14_controller_only",
    "Ica.C14_never_commits"
   ],
   "note": ""
  },
  {
   "property": "C15",
   "status": "proved",
   "theorems": [
    "Ica.C15_ica_info_usable",
    "Ica.C15_ica_iff_channel",
    "Ica.C15_ica_never_unset"
   ],
   "note": ""
  },
  {
   "property": "C16",
   "status": "proved",
   "theorems": [
    "Ica.C16_open_or_closed",
    "Ica.C16_open_only_by_open_ack",
    "Ica.C16_nothing_before_open_ack"
   ],
   "note": ""
  },
  {
   "property": "C17",
   "status": "proved",
   "theorems": [
    "Ica.C17_reported_open_is_open"
   ],
   "note": ""
  },
  {
   "property": "C18",
   "status": "partial",
   "theorems": [
    "Ica.C18_timeout_closes_own_channel_partial",
    "Ica.C18_chain_timeout_own_channel",
    "Ica.C18_other_channels_timeout_closes"
   ],
   "note": "The claim is false of the code: C18_other_channels_timeout_closes exhibits a history in which the timeout of a packet of another channel marks the tracked open ordered channel closed. Proved: the claim for a packet of the tracked channel."
  },
  {
   "property": "C19",
   "status": "proved",
   "theorems": [
    "Ica.C19_owner_can_close"
   ],
   "note": ""
  },
  {
   "property": "C20",
   "status": "proved",
   "theorems": [
    "Ica.C20_close_confirm_iff",
    "Ica.C20_close_init_iff"
   ],
   "note": ""
  },
  {
   "property": "C21",
   "status": "proved",
   "theorems": [
    "Ica.C21_closed_can_be_replaced"
   ],
   "note": ""
  },
  {
   "property": "C22",
   "status": "proved",
   "theorems": [
    "Ica.C22_not_those_of_instantiation",
    "Ica.C22_repeats_last_options",
    "Ica.C22_with_options"
   ],
   "note": ""
  },
  {
   "property": "C23",
   "status": "proved",
   "theorems": [
    "Ica.C23_closed_stays_closed",
    "Ica.C23_never_reported_open_again"
   ],
   "note": ""
  },
  {
   "property": "C24",
   "status": "partial",
   "theorems": [
    "Ica.C24_two_open_channels",
    "Ica.C24_at_most_one_open_partial"
   ],
   "note": "The claim is false of the code: C24_two_open_channels exhibits a history with two open channels (two handshakes overlap). Proved: at most one open channel as long as no handshake is started while another is pending and no packet of an earlier channel times out while another is reported."
  },
  {
   "property": "C25",
   "status": "proved",
   "theorems": [
    "Ica.C25_one_packet"
   ],
   "note": ""
  },
  {
   "property": "C26",
   "status": "proved",
   "theorems": [
    "Ica.C26_no_packet_before_handshake",
    "Ica.C26_packets_after_handshake"
   ],
   "note": ""
  },
  {
   "property": "C27",
   "status": "proved",
   "theorems": [
    "Ica.C27_host_reads"
   ],
   "note": ""
  },
  {
   "property": "C28",
   "status": "proved",
   "theorems": [
    "Ica.C28_signed_by_ica"
   ],
   "note": ""
  },
  {
   "property": "C29",
   "status": "proved",
   "theorems": [
    "Ica.C29_stargate_verbatim"
   ],
   "note": ""
  },
  {
   "property": "C30",
   "status": "proved",
   "theorems": [
    "Ica.C30_timeout_exact",
    "Ica.C30_overflow_refused"
   ],
   "note": ""
  },
  {
   "property": "C31",
   "status": "proved",
   "theorems": [
    "Ica.C31_unsupported_refused",
    "Ica.C31_send_iff"
   ],
   "note": ""
  },
  {
   "property": "C32",
   "status": "partial",
   "theorems": [
    "Ica.C32_contract_accepts_after_close",
    "Ica.C32_packet_on_reported_closed",
    "Ica.C32_no_packet_on_closed_partial",
    "Ica.C32_no_packet_after_close_partial"
   ],
   "note": "The claim is false of the code: ica_info stays after a close, so the contract accepts a send (C32_contract_accepts_after_close), and a channel reported closed by another channel's timeout still carries packets (C32_packet_on_reported_closed). Proved: the chain refuses packets on a channel that is closed on the chain."
  },
  {
   "property": "C33",
   "status": "proved",
   "theorems": [
    "Ica.C33_no_scratch",
    "Ica.C33_record_exact"
   ],
   "note": ""
  },
  {
   "property": "C34",
   "status": "proved",
   "theorems": [
    "Ica.C34_pending_records"
   ],
   "note": ""
  },
  {
   "property": "C35",
   "status": "partial",
   "theorems": [
    "Ica.C35_error_ack_leaks",
    "Ica.C35_settled_clears_partial",
    "Ica.C35_only_error_acks_leak_partial"
   ],
   "note": "The claim is false of the code: C35_error_ack_leaks exhibits a history in which the record of a packet settled by an error acknowledgement stays. Proved: the claim for success acknowledgements and timeouts, and that nothing else leaks."
  },
  {
   "property": "C36",
   "status": "proved",
   "theorems": [
    "Ica.C36_others_untouched",
    "Ica.C36_distinct_keys",
    "Ica.C36_not_an_item",
    "Ica.C36_items_distinct",
    "Ica.C36_ack_touches_one_key",
    "Ica.C36_timeout_touches"
   ],
   "note": ""
  },
  {
   "property": "C37",
   "status": "partial",
   "theorems": [
    "Ica.C37_error_ack_reports",
    "Ica.C37_success_partial",
    "Ica.C37_error_partial"
   ],
   "note": "The claim is false of the code: C37_error_ack_reports exhibits an error acknowledgement of a packet without queries reported with a query result. Proved: the claim for success acknowledgements, and exactly what error acknowledgements carry."
  },
  {
   "property": "C38",
   "status": "proved",
   "theorems": [
    "Ica.C38_positional"
   ],
   "note": ""
  },
  {
   "property": "C39",
   "status": "proved",
   "theorems": [
    "Ica.C39_answer_decoded",
    "Ica.C39_reported"
   ],
   "note": ""
  },
  {
   "property": "C40",
   "status": "partial",
   "theorems": [
    "Ica.C40_validator_scaled_partial",
    "Ica.C40_validators_scaled_partial",
    "Ica.C40_wrong_rates"
   ],
   "note": "The claim is false of the code: C40_wrong_rates exhibits a validator whose commission is reported 10^18 times too large. Proved: every rate is reported exactly 10^18 times too large, everything else right."
  },
  {
   "property": "C41",
   "status": "proved",
   "theorems": [
    "Ica.C41_same_kind"
   ],
   "note": ""
  },
  {
   "property": "C42",
   "status": "proved",
   "theorems": [
    "Ica.C42_malformed_refused",
    "Ica.C42_processed_iff"
   ],
   "note": ""
  },
  {
   "property": "C43",
   "status": "proved",
   "theorems": [
    "Ica.C43_exactly_one",
    "Ica.C43_none_without_address",
    "Ica.C43_no_other"
   ],
   "note": ""
  },
  {
   "property": "C44",
   "status": "proved",
   "theorems": [
    "Ica.C44_open_ack",
    "Ica.C44_ack",
    "Ica.C44_timeout",
    "Ica.C44_packet_was_sent"
   ],
   "note": ""
  },
  {
   "property": "C45",
   "status": "proved",
   "theorems": [
    "Ica.C45_told_at_most_once",
    "Ica.C45_settled_for_ever"
   ],
   "note": ""
  },
  {
   "property": "C46",
   "status": "proved",
   "theorems": [
    "Ica.C46_failing_callee_fails",
    "Ica.C46_callee_runs_last",
    "Ica.C46_tx_is_nested",
    "Ica.C46_retry_as_first"
   ],
   "note": ""
  },
  {
   "property": "C47",
   "status": "proved",
   "theorems": [
    "Ica.C47_event",
    "Ica.C47_event_identifies",
    "Ica.C47_no_other_events"
   ],
   "note": ""
  },
  {
   "property": "C48",
   "status": "proved",
   "theorems": [
    "Ica.C48_migrate_iff",
    "Ica.C48_second_fails",
    "Ica.C48_never_again"
   ],
   "note": ""
  },
  {
   "property": "C49",
   "status": "proved",
   "theorems": [
    "Ica.C49_total",
    "Ica.C49_trans",
    "Ica.C49_no_cycle",
    "Ica.C49_precedence",
    "Ica.C49_precedence_release",
    "Ica.C49_prerelease"
   ],
   "note": ""
  },
  {
   "property": "C50",
   "status": "proved",
   "theorems": [
    "Ica.C50_send_is_protobuf",
    "Ica.C50_from_instantiation",
    "Ica.C50_from_migration"
   ],
   "note": ""
  },
  {
   "property": "C51",
   "status": "proved",
   "theorems": [
    "Ica.C51_nothing_is_caught",
    "Ica.C51_nested_failure_fails",
    "Ica.C51_failed_entry_fails",
    "Ica.C51_failed_tx_no_trace"
   ],
   "note": ""
  },
  {
   "property": "C52",
   "status": "proved",
   "theorems": [
    "Ica.C52_query_iff",
    "Ica.C52_read_only",
    "Ica.C52_client_reads"
   ],
   "note": ""
  },
  {
   "property": "C53",
   "status": "proved",
   "theorems": [
    "Ica.C53_latest_wins",
    "Ica.C53_events_use_latest",
    "Ica.C53_update_touches_nothing_else",
    "Ica.C53_handshake_keeps"
   ],
   "note": ""
  },
  {
   "property": "C54",
   "status": "proved",
   "theorems": [
    "Ica.C54_execute",
    "Ica.C54_instantiate",
    "Ica.C54_instantiate2",
    "Ica.C54_migrate",
    "Ica.C54_admin"
   ],
   "note": ""
  },
  {
   "property": "C55",
   "status": "proved",
   "theorems": [
    "Ica.C55_address_is_right",
    "Ica.C55_chain_accepts",
    "Ica.C55_different_salts_differ"
   ],
   "note": ""
  },
  {
   "property": "C56",
   "status": "partial",
   "theorems": [
    "Ica.C56_address_partial",
    "Ica.C56_ascii_if_table_ascii_partial",
    "Ica.C56_non_ascii_accepted"
   ],
   "note": "The claim is false of the code: C56_non_ascii_accepted exhibits an accepted address with a non-ASCII letter. Proved: accepted addresses are alphanumeric in Rust's sense, not longer than 128 bytes; ASCII if the Unicode table has only ASCII."
  },
  {
   "property": "C57",
   "status": "partial",
   "theorems": [
    "Ica.C57_handshake_keeps_proposal_partial",
    "Ica.C57_metadata_partial",
    "Ica.C57_host_connection_unchecked"
   ],
   "note": "The claim is false of the code in its last part: C57_host_connection_unchecked exhibits an accepted OpenAck whose host connection id is not the proposed one. Proved: all other parts."
  },
  {
   "property": "C58",
   "status": "proved",
   "theorems": [
    "Ica.C58_bytes_histories",
    "Ica.C58_every_history_in_bytes",
    "Ica.C58_undecodable_refused"
   ],
   "note": ""
  },
  {
   "property": "C59",
   "status": "proved",
   "theorems": [
    "Ica.C59_only_own_keys"
   ],
   "note": ""
  },
  {
   "property": "C60",
   "status": "proved",
   "theorems": [
    "Ica.C60_nothing_else"
   ],
   "note": ""
  },
  {
   "property": "C61",
   "status": "proved",
   "theorems": [
    "Ica.C61_reads_callbacks",
    "Ica.C61_reads_every_call",
    "Ica.C61_others_unchanged",
    "Ica.C61_enums_only"
   ],
   "note": ""
  },
  {
   "property": "C62",
   "status": "proved",
   "theorems": [
    "Ica.C62_plain_receiver",
    "Ica.C62_plain_client"
   ],
   "note": ""
  },
  {
   "property": "C63",
   "status": "proved",
   "theorems": [
    "Ica.C63_counter_records",
    "Ica.C63_counter_counts"
   ],
   "note": ""
  },
  {
   "property": "C64",
   "status": "proved",
   "theorems": [
    "Ica.C64_only_admin",
    "Ica.C64_registry",
    "Ica.C64_controllers_are_its_own",
    "Ica.C64_callbacks_only_from_controllers",
    "Ica.C64_admin_can_create"
   ],
   "note": ""
  },
  {
   "property": "C65",
   "status": "proved",
   "theorems": [
    "Ica.C65_accepts_every_callback",
    "Ica.C65_open_ack_recorded",
    "Ica.C65_predefined_action"
   ],
   "note": ""
  },
  {
   "property": "C66",
   "status": "proved",
   "theorems": [
    "Ica.C66_reads_protobuf",
    "Ica.C66_unambiguous",
    "Ica.C66_packet_bytes"
   ],
   "note": ""
  },
  {
   "property": "C67",
   "status": "proved",
   "theorems": [
    "Ica.C67_reads_json",
    "Ica.C67_writes_json",
    "Ica.C67_unambiguous"
   ],
   "note": ""
  },
  {
   "property": "C68",
   "status": "proved",
   "theorems": [
    "Ica.C68_writes_base64",
    "Ica.C68_reads_base64",
    "Ica.C68_unambiguous"
   ],
   "note": ""
  },
  {
   "property": "C69",
   "status": "proved",
   "theorems": [
    "Ica.C69_execute",
    "Ica.C69_instantiate",
    "Ica.C69_query",
    "Ica.C69_migrate",
    "Ica.C69_unambiguous",
    "Ica.C69_unambiguous_others",
    "Ica.C69_metadata",
    "Ica.C69_acknowledgement"
   ],
   "note": ""
  },
  {
   "property": "C70",
   "status": "proved",
   "theorems": [
    "Ica.C70_contract_state",
    "Ica.C70_channel",
    "Ica.C70_ownership",
    "Ica.C70_callbacks"
   ],
   "note": ""
  },
  {
   "property": "C71",
   "status": "proved",
   "theorems": [
    "Ica.C71_stays_owned",
    "Ica.C71_nobody_else",
    "Ica.C71_never_blocked"
   ],
   "note": ""
  },
  {
   "property": "C72",
   "status": "proved",
   "theorems": [
    "Ica.C72_registry_follows",
    "Ica.C72_everyone_listed"
   ],
   "note": ""
  },
  {
   "property": "C73",
   "status": "partial",
   "theorems": [
    "Ica.C73_status_partial",
    "Ica.C73_stale_after_close"
   ],
   "note": "The claim is false of the code: C73_stale_after_close shows that the registry shows every closed channel as open, for ever (Ex.closed is a history with one). Proved: the claim while the controller reports its channel open."
  },
  {
   "property": "C74",
   "status": "proved",
   "theorems": [
    "Ica.C74_packets_by_admin"
   ],
   "note": ""
  },
  {
   "property": "C75",
   "status": "proved",
   "theorems": [
    "Ica.C75_one_channel",
    "Ica.C75_closed_for_ever"
   ],
   "note": ""
  },
  {
   "property": "C76",
   "status": "proved",
   "theorems": [
    "Ica.C76_create_iff",
    "Ica.C76_create_effect",
    "Ica.C76_handshake",
    "Ica.C76_action_iff"
   ],
   "note": ""
  },
  {
   "property": "C77",
   "status": "proved",
   "theorems": [
    "Ica.C77_salt_once"
   ],
   "note": ""
  },
  {
   "property": "C78",
   "status": "proved",
   "theorems": [
    "Ica.C78_bytes_to_values",
    "Ica.C78_values_to_bytes"
   ],
   "note": ""
  },
  {
   "property": "C79",
   "status": "proved",
   "theorems": [
    "Ica.C79_contract_state",
    "Ica.C79_ica_count",
    "Ica.C79_ica_contract_state",
    "Ica.C79_refuses"
   ],
   "note": ""
  },
  {
   "property": "C80",
   "status": "proved",
   "theorems": [
    "Ica.C80_macro_reads",
    "Ica.C80_owner_reads",
    "Ica.C80_counter",
    "Ica.C80_counter_all"
   ],
   "note": ""
  },
  {
   "property": "C81",
   "status": "proved",
   "theorems": [
    "Ica.C81_reported_account",
    "Ica.C81_host_connection",
    "Ica.C81_same_address",
    "Ica.C81_open_ack_told"
   ],
   "note": ""
  },
  {
   "property": "C82",
   "status": "proved",
   "theorems": [
    "Ica.C82_only_asked",
    "Ica.C82_owner_asked",
    "Ica.C82_at_most_once"
   ],
   "note": ""
  },
  {
   "property": "C83",
   "status": "proved",
   "theorems": [
    "Ica.C83_success_told",
    "Ica.C83_error_told",
    "Ica.C83_timeout_told"
   ],
   "note": ""
  },
  {
   "property": "C84",
   "status": "proved",
   "theorems": [
    "Ica.C84_in_order",
    "Ica.C84_nothing_skipped"
   ],
   "note": ""
  },
  {
   "property": "C85",
   "status": "proved",
   "theorems": [
    "Ica.C85_can_try",
    "Ica.C85_can_open",
    "Ica.C85_can_acknowledge",
    "Ica.C85_can_time_out",
    "Ica.C85_authentic",
    "Ica.C85_can_execute"
   ],
   "note": ""
  },
  {
   "property": "C86",
   "status": "proved",
   "theorems": [
    "Ica.C86_answered_at_height",
    "Ica.C86_reported"
   ],
   "note": ""
  },
  {
   "property": "C87",
   "status": "proved",
   "theorems": [
    "Ica.C87_builds_iff",
    "Ica.C87_host_reads",
    "Ica.C87_same_as_contract"
   ],
   "note": ""
  },
  {
   "property": "C88",
   "status": "proved",
   "theorems": [
    "Ica.C88_responses",
    "Ica.C88_at_index",
    "Ica.C88_where"
   ],
   "note": ""
  },
  {
   "property": "C89",
   "status": "proved",
   "theorems": [
    "Ica.C89_only_admin",
    "Ica.C89_listed_account",
    "Ica.C89_one_call_each",
    "Ica.C89_can_execute"
   ],
   "note": ""
  },
  {
   "property": "C90",
   "status": "proved",
   "theorems": [
    "Ica.C90_can_settle",
    "Ica.C90_lost_when_closed",
    "Ica.C90_closed_iff"
   ],
   "note": ""
  },
  {
   "property": "C91",
   "status": "partial",
   "theorems": [
    "Ica.C91_can_reopen_partial",
    "Ica.C91_careful_can_reopen_partial",
    "Ica.C91_locked_for_ever",
    "Ica.C91_can_be_locked"
   ],
   "note": "The claim is false of the code: C91_can_be_locked gives a history (two overlapping handshakes, confirmed at the host in the opposite order, then close_channel) after which the account can never be reached again; C91_locked_for_ever says which states are locked. Proved: the claim in every state in which the reported channel is the only open channel of its connection (C91_can_reopen_partial), which holds as long as handshakes do not overlap (C91_careful_can_reopen_partial)."
  },
  {
   "property": "C92",
   "status": "proved",
   "theorems": [
    "Ica.C92_admitted_iff"
   ],
   "note": ""
  },
  {
   "property": "C93",
   "status": "partial",
   "theorems": [
    "Ica.C93_acceptable_iff",
    "Ica.C93_nonempty_partial",
    "Ica.C93_empty_packet"
   ],
   "note": "The claim is false of the code: C93_empty_packet is a joint history in which the owner sends a packet with neither messages nor queries, the host executes it, and the event of the acknowledgement has a blank value. Proved: which acknowledgements give an acceptable event (C93_acceptable_iff), and the claim as long as the owner sends no such packet and failures carry a reason (C93_nonempty_partial)."
  },
  {
   "property": "C94",
   "status": "proved",
   "theorems": [
    "Ica.C94_in_order",
    "Ica.C94_held_up"
   ],
   "note": ""
  },
  {
   "property": "C95",
   "status": "proved",
   "theorems": [
    "Ica.C95_joint_histories",
    "Ica.C95_every_history",
    "Ica.C95_continues",
    "Ica.C95_only_asked",
    "Ica.C95_told"
   ],
   "note": ""
  },
  {
   "property": "C96",
   "status": "proved",
   "theorems": [
    "Ica.C96_can_settle"
   ],
   "note": ""
  },
  {
   "property": "C97",
   "status": "proved",
   "theorems": [
    "Ica.C97_request_answered",
    "Ica.C97_any_number"
   ],
   "note": ""
  },
  {
   "property": "C98",
   "status": "proved",
   "theorems": [
    "Ica.C98_answers_read_alike",
    "Ica.C98_results_read_alike",
    "Ica.C98_reported_alike"
   ],
   "note": ""
  },
  {
   "property": "C99",
   "status": "proved",
   "theorems": [
    "Ica.C99_recover_and_use"
   ],
   "note": ""
  },
  {
   "property": "C100",
   "status": "partial",
   "theorems": [
    "Ica.C100_execute_partial",
    "Ica.C100_call_partial",
    "Ica.C100_no_offer",
    "Ica.C100_instantiate",
    "Ica.C100_query",
    "Ica.C100_query_client",
    "Ica.C100_from_proto",
    "Ica.C100_owner",
    "Ica.C100_owner_instantiate",
    "Ica.C100_owner_query"
   ],
   "note": "The claim is false of the code for one message: C100_no_offer says that no offer of ownership made with the Go client is understood. Proved: the claim for all other messages, for instantiation and queries, and for the owner contract. How the client reads answers is C103."
  },
  {
   "property": "C101",
   "status": "proved",
   "theorems": [
    "Ica.C101_kept",
    "Ica.C101_taken",
    "Ica.C101_every_history",
    "Ica.C101_owner_kept",
    "Ica.C101_owner_taken"
   ],
   "note": ""
  },
  {
   "property": "C102",
   "status": "proved",
   "theorems": [
    "Ica.C102_action_answered",
    "Ica.C102_any_number"
   ],
   "note": ""
  },
  {
   "property": "C103",
   "status": "proved",
   "theorems": [
    "Ica.C103_channel",
    "Ica.C103_state",
    "Ica.C103_ownership",
    "Ica.C103_nil",
    "Ica.C103_one_channel",
    "Ica.C103_one_state",
    "Ica.C103_one_ownership",
    "Ica.C103_owner_state",
    "Ica.C103_owner_count",
    "Ica.C103_owner_registry",
    "Ica.C103_one_registry",
    "Ica.C103_counter",
    "Ica.C103_unwrap",
    "Ica.C103_absent"
   ],
   "note": ""
  },
  {
   "property": "C104",
   "status": "partial",
   "theorems": [
    "Ica.C104_first_hundred_partial",
    "Ica.C104_success_partial",
    "Ica.C104_complete_partial",
    "Ica.C104_incomplete"
   ],
   "note": "The claim is false of the code: C104_incomplete exhibits an account with 101 coins of which 100 are reported, because the queries are sent without a page request and the rest of the answer's page information is dropped. Proved: the first hundred are reported exactly, and all of them if there are at most a hundred."
  },
  {
   "property": "C105",
   "status": "partial",
   "theorems": [
    "Ica.C105_pages_partial",
    "Ica.C105_repeats",
    "Ica.C105_always_a_key"
   ],
   "note": "The claim is false of the code: with the last page an empty key is reported and not none (C105_always_a_key), and asking with it starts over (C105_repeats). Proved: the claim for a client that stops at an empty key."
  },
  {
   "property": "C106",
   "status": "partial",
   "theorems": [
    "Ica.C106_first_hundred_partial",
    "Ica.C106_active_partial",
    "Ica.C106_others_too"
   ],
   "note": "The claim is false of the code: C106_others_too exhibits an inactive validator that is reported, because the query is sent with an empty status. Proved: exactly the first hundred validators of any status are reported."
  },
  {
   "property": "C107",
   "status": "proved",
   "theorems": [
    "Ica.C107_never_opens",
    "Ica.C107_right_opens",
    "Ica.C107_start_over",
    "Ica.C107_only_mistakes"
   ],
   "note": ""
  },
  {
   "property": "C108",
   "status": "partial",
   "theorems": [
    "Ica.C108_only_asked",
    "Ica.C108_closed_for_good_partial",
    "Ica.C108_careful_closed_for_good_partial",
    "Ica.C108_opened_after_close"
   ],
   "note": "The claim is false of the code: C108_opened_after_close gives a history in which the owner closes the open channel while a second handshake is under way, and a relayer then completes it. Proved: what is open later was open or being opened before, or was created by the owner since (C108_only_asked); and once no channel is open or being opened, nothing opens again until the owner creates a channel (C108_closed_for_good_partial), which closing ensures as long as handshakes do not overlap (C108_careful_closed_for_good_partial)."
  },
  {
   "property": "C109",
   "status": "proved",
   "theorems": [
    "Ica.C109_unambiguous",
    "Ica.C109_reported",
    "Ica.C109_one_bad"
   ],
   "note": ""
  },
  {
   "property": "C110",
   "status": "proved",
   "theorems": [
    "Ica.C110_each_packet_once",
    "Ica.C110_lists_are_true",
    "Ica.C110_missing_is_pending"
   ],
   "note": ""
  },
  {
   "property": "C111",
   "status": "proved",
   "theorems": [
    "Ica.C111_machine",
    "Ica.C111_complete",
    "Ica.C111_effect",
    "Ica.C111_determined",
    "Ica.C111_bytes"
   ],
   "note": ""
  },
  {
   "property": "C112",
   "status": "proved",
   "theorems": [
    "Ica.C112_machine",
    "Ica.C112_complete",
    "Ica.C112_determined"
   ],
   "note": ""
  },
  {
   "property": "C113",
   "status": "proved",
   "theorems": [
    "Ica.Refusal.C113_explains",
    "Ica.Refusal.C113_instantiation",
    "Ica.Refusal.C113_one"
   ],
   "note": ""
  },
  {
   "property": "C114",
   "status": "proved",
   "theorems": [
    "Ica.Stored.C114_keys",
    "Ica.Stored.C114_bounded",
    "Ica.Stored.C114_left_behind"
   ],
   "note": ""
  },
  {
   "property": "C115",
   "status": "proved",
   "theorems": [
    "Ica.OwnerRefusal.C115_owner_explains",
    "Ica.OwnerRefusal.C115_owner_instantiation"
   ],
   "note": ""
  },
  {
   "property": "C116",
   "status": "proved",
   "theorems": [
    "Ica.OwnerStored.C116_owner_storage"
   ],
   "note": ""
  },
  {
   "property": "C117",
   "status": "proved",
   "theorems": [
    "Ica.StoredAs.C117_values"
   ],
   "note": ""
  },
  {
   "property": "C118",
   "status": "proved",
   "theorems": [
    "Ica.Schedule.C118_any_schedule",
    "Ica.Schedule.C118_callback_matters"
   ],
   "note": ""
  },
  {
   "property": "C119",
   "status": "proved",
   "theorems": [
    "Ica.System.C119_any_interleaving",
    "Ica.System.C119_untouched"
   ],
   "note": ""
  },
  {
   "property": "C120",
   "status": "proved",
   "theorems": [
    "Ica.C120_instantiate",
    "Ica.C120_execute",
    "Ica.C120_reply",
    "Ica.C120_query",
    "Ica.C120_migrate",
    "Ica.C120_handshake",
    "Ica.C120_packets",
    "Ica.C120_unreadable",
    "Ica.C120_others_in_flight",
    "Ica.C120_owner",
    "Ica.C120_owner_execute"
   ],
   "note": ""
  },
  {
   "property": "C121",
   "status": "partial",
   "theorems": [
    "Ica.C121_only_where_told",
    "Ica.C121_one_for_each_connection",
    "Ica.C121_one_account_partial",
    "Ica.C121_many_accounts",
    "Ica.C121_two_accounts"
   ],
   "note": "The README's claim is false of the code: C121_two_accounts exhibits a history in which one contract has accounts with different addresses on two chains and uses both in turn; C121_many_accounts says that this is so for any plan of accounts. Proved: one account for each connection, accounts only where the contract was told the connection, and one account if it was told one connection."
  },
  {
   "property": "C122",
   "status": "proved",
   "theorems": [
    "Ica.C122_upgrade",
    "Ica.C122_histories",
    "Ica.C122_bytes",
    "Ica.C122_any_time",
    "Ica.C122_without_owner"
   ],
   "note": ""
  },
  {
   "property": "C123",
   "status": "proved",
   "theorems": [
    "Ica.C123_transaction",
    "Ica.C123_history",
    "Ica.C123_answers",
    "Ica.C123_calls",
    "Ica.C123_members",
    "Ica.C123_further_members",
    "Ica.C123_strict",
    "Ica.C123_owner"
   ],
   "note": ""
  },
  {
   "property": "C124",
   "status": "proved",
   "theorems": [
    "Ica.C124_scene",
    "Ica.C124_script",
    "Ica.C124_setup",
    "Ica.C124_every_script"
   ],
   "note": ""
  },
  {
   "property": "C125",
   "status": "proved",
   "theorems": [
    "Ica.C125_create_channel",
    "Ica.C125_instantiate",
    "Ica.C125_no_queries",
    "Ica.C125_removed_calls",
    "Ica.C125_further_members"
   ],
   "note": ""
  },
  {
   "property": "C126",
   "status": "proved",
   "theorems": [
    "Ica.C126_at_most_once",
    "Ica.C126_done_once",
    "Ica.C126_until_done"
   ],
   "note": ""
  },
  {
   "property": "C127",
   "status": "proved",
   "theorems": [
    "Ica.C127_as_if_told",
    "Ica.C127_only_asked_once",
    "Ica.C127_told",
    "Ica.C127_reported_account",
    "Ica.C127_all_transactions"
   ],
   "note": ""
  },
  {
   "property": "C128",
   "status": "partial",
   "theorems": [
    "Ica.C128_readme_refused",
    "Ica.C128_readme_means",
    "Ica.C128_vote_needs_option",
    "Ica.C128_delegate_and_vote_partial"
   ],
   "note": "The claim is false of the code: C128_readme_refused shows that the message printed in the README is refused in every state, and C128_vote_needs_option that every request with such a vote is. Proved: the claim for the message with the member `option` in place of `vote`."
  }
 ]
}
