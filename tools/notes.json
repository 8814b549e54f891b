{
 "C18": "The claim is false of the code: C18_other_channels_timeout_closes exhibits a history in which the timeout of a packet of another channel marks the tracked open ordered channel closed. Proved: the claim for a packet of the tracked channel.",
 "C24": "The claim is false of the code: C24_two_open_channels exhibits a history with two open channels (two handshakes overlap). Proved: at most one open channel as long as no handshake is started while another is pending and no packet of an earlier channel times out while another is reported.",
 "C32": "The claim is false of the code: ica_info stays after a close, so the contract accepts a send (C32_contract_accepts_after_close), and a channel reported closed by another channel's timeout still carries packets (C32_packet_on_reported_closed). Proved: the chain refuses packets on a channel that is closed on the chain.",
 "C35": "The claim is false of the code: C35_error_ack_leaks exhibits a history in which the record of a packet settled by an error acknowledgement stays. Proved: the claim for success acknowledgements and timeouts, and that nothing else leaks.",
 "C37": "The claim is false of the code: C37_error_ack_reports exhibits an error acknowledgement of a packet without queries reported with a query result. Proved: the claim for success acknowledgements, and exactly what error acknowledgements carry.",
 "C40": "The claim is false of the code: C40_wrong_rates exhibits a validator whose commission is reported 10^18 times too large. Proved: every rate is reported exactly 10^18 times too large, everything else right.",
 "C56": "The claim is false of the code: C56_non_ascii_accepted exhibits an accepted address with a non-ASCII letter. Proved: accepted addresses are alphanumeric in Rust's sense, not longer than 128 bytes; ASCII if the Unicode table has only ASCII.",
 "C57": "The claim is false of the code in its last part: C57_host_connection_unchecked exhibits an accepted OpenAck whose host connection id is not the proposed one. Proved: all other parts.",
 "C73": "The claim is false of the code: C73_stale_after_close shows that the registry shows every closed channel as open, for ever (Ex.closed is a history with one). Proved: the claim while the controller reports its channel open.",
 "C91": "The claim is false of the code: C91_can_be_locked gives a history (two overlapping handshakes, confirmed at the host in the opposite order, then close_channel) after which the account can never be reached again; C91_locked_for_ever says which states are locked. Proved: the claim in every state in which the reported channel is the only open channel of its connection (C91_can_reopen_partial), which holds as long as handshakes do not overlap (C91_careful_can_reopen_partial).",
 "C93": "The claim is false of the code: C93_empty_packet is a joint history in which the owner sends a packet with neither messages nor queries, the host executes it, and the event of the acknowledgement has a blank value. Proved: which acknowledgements give an acceptable event (C93_acceptable_iff), and the claim as long as the owner sends no such packet and failures carry a reason (C93_nonempty_partial).",
 "C100": "The claim is false of the code for one message: C100_no_offer says that no offer of ownership made with the Go client is understood. Proved: the claim for all other messages, for instantiation and queries, and for the owner contract. How the client reads answers is C103.",
 "C104": "The claim is false of the code: C104_incomplete exhibits an account with 101 coins of which 100 are reported, because the queries are sent without a page request and the rest of the answer's page information is dropped. Proved: the first hundred are reported exactly, and all of them if there are at most a hundred.",
 "C105": "The claim is false of the code: with the last page an empty key is reported and not none (C105_always_a_key), and asking with it starts over (C105_repeats). Proved: the claim for a client that stops at an empty key.",
 "C106": "The claim is false of the code: C106_others_too exhibits an inactive validator that is reported, because the query is sent with an empty status. Proved: exactly the first hundred validators of any status are reported.",
 "C108": "The claim is false of the code: C108_opened_after_close gives a history in which the owner closes the open channel while a second handshake is under way, and a relayer then completes it. Proved: what is open later was open or being opened before, or was created by the owner since (C108_only_asked); and once no channel is open or being opened, nothing opens again until the owner creates a channel (C108_closed_for_good_partial), which closing ensures as long as handshakes do not overlap (C108_careful_closed_for_good_partial).",
 "C121": "The README's claim is false of the code: C121_two_accounts exhibits a history in which one contract has accounts with different addresses on two chains and uses both in turn; C121_many_accounts says that this is so for any plan of accounts. Proved: one account for each connection, accounts only where the contract was told the connection, and one account if it was told one connection.",
 "C128": "The claim is false of the code: C128_readme_refused shows that the message printed in the README is refused in every state, and C128_vote_needs_option that every request with such a vote is. Proved: the claim for the message with the member `option` in place of `vote`."
}
