Wamp.C01_received: Classical.choice, Quot.sound, propext
Wamp.C01_wire_round_trip: Classical.choice, Quot.sound, propext
Wamp.C02_abort_diagnostics_false: Classical.choice, Quot.sound, propext
Wamp.C02_abort_diagnostics_partial: Classical.choice, Quot.sound, propext
Wamp.C03_binary_payload_false: Classical.choice, Quot.sound, propext
Wamp.C03_binary_payload_partial: Classical.choice, Quot.sound, propext
Wamp.C04_parse_soundness: Classical.choice, Quot.sound, propext
Wamp.C05_parse_completeness: Classical.choice, Quot.sound, propext
Wamp.C06_clean_failure_false: Classical.choice, Quot.sound, propext
Wamp.C06_clean_failure_partial: Classical.choice, Quot.sound, propext
Wamp.C07_relay_transparency: Classical.choice, Quot.sound, propext
Wamp.C08_dispatch: Classical.choice, Quot.sound, propext
Wamp.C08_unknown_rejected: Classical.choice, Quot.sound, propext
Wamp.C08_not_a_list: Classical.choice, Quot.sound, propext
Wamp.C08_codes: Quot.sound, propext
Wamp.C09_complete_error_report: Classical.choice, Quot.sound, propext
Wamp.C10_serializer_round_trip: Classical.choice, Quot.sound, propext
Wamp.C10_serializer_received: Classical.choice, Quot.sound, propext
Wamp.C10_deserialize_valid: Classical.choice, Quot.sound, propext
Wamp.C10_deserialize_errors: Classical.choice, Quot.sound, propext
Wamp.WAMPSession.C46_receive_bytes: Classical.choice, Quot.sound, propext
Wamp.Joiner.C61_receive_bytes: Classical.choice, Quot.sound, propext
Wamp.Acceptor.C60_receive_reply: Classical.choice, Quot.sound, propext
Wamp.Acceptor.C60_receive_state: Classical.choice, Quot.sound, propext
Wamp.Spec.C100_number: Classical.choice, Quot.sound, propext
Wamp.Spec.C100_one_double: Classical.choice, Quot.sound, propext
Wamp.Spec.C100_argument: Classical.choice, Quot.sound, propext
Wamp.Spec.C100_restored: Classical.choice, Quot.sound, propext
Wamp.Spec.C100_relayed: Classical.choice, Quot.sound, propext
Wamp.Spec.C100_msgpack_single: Classical.choice, Quot.sound, propext
Wamp.Spec.C100_cbor_single: Classical.choice, Quot.sound, propext
Wamp.Spec.C100_cbor_half: Classical.choice, Quot.sound, propext
Wamp.C101_anonymous: Classical.choice, Quot.sound, propext
Wamp.C101_ticket: Classical.choice, Quot.sound, propext
Wamp.C101_wampcra_refused: Classical.choice, Quot.sound, propext
Wamp.C101_wampcra_wrong_secret: Classical.choice, Quot.sound, propext
Wamp.C101_cryptosign_refused: Classical.choice, Quot.sound, propext
Wamp.C101_cryptosign_wrong_key: Classical.choice, Quot.sound, propext
Wamp.Spec.C102_conversation: Classical.choice, Quot.sound, propext
Wamp.Spec.C103_read: Classical.choice, Quot.sound, propext
Wamp.Spec.C103_message: Classical.choice, Quot.sound, propext
Wamp.Spec.C103_same: Classical.choice, Quot.sound, propext
Wamp.Spec.C103_one_value: Classical.choice, Quot.sound, propext
Wamp.Spec.C103_payload: Classical.choice, Quot.sound, propext
Wamp.Spec.C103_encodings: Classical.choice, Quot.sound, propext
Wamp.Spec.C104_written: Classical.choice, Quot.sound, propext
Wamp.Spec.C104_message: Classical.choice, Quot.sound, propext
Wamp.Spec.C104_any_reader: Classical.choice, Quot.sound, propext
Wamp.Spec.C104_payload: Classical.choice, Quot.sound, propext
Wamp.Acceptor.C105_answer_partial: Classical.choice, Quot.sound, propext
Wamp.Acceptor.C105_no_replay: Classical.choice, Quot.sound, propext
Wamp.C105_equal_macs: Classical.choice, Quot.sound, propext
Wamp.C105_same_key: Classical.choice, Quot.sound, propext
Wamp.C105_short_secrets: Classical.choice, Quot.sound, propext
Wamp.C105_wrong_secret: Classical.choice, Quot.sound, propext
Wamp.C105_other_secret: Classical.choice, Quot.sound, propext
Wamp.C105_other_secret_case: Classical.choice, Quot.sound, propext
Wamp.Spec.C106_shortest: Classical.choice, Quot.sound, propext
Wamp.Spec.C106_argument: Classical.choice, Quot.sound, propext
Wamp.C107_wampcra_partial: Classical.choice, Quot.sound, propext
Wamp.C107_cryptosign_partial: Classical.choice, Quot.sound, propext
Wamp.C107_ticket_partial: none
Wamp.Joiner.C107_next_challenge: Quot.sound, propext
Wamp.Joiner.C107_own_method_false: propext
Wamp.Spec.C108_broker: Classical.choice, Quot.sound, propext
Wamp.Spec.C108_dealer: Classical.choice, Quot.sound, propext
Wamp.Spec.C109_broker: Classical.choice, Quot.sound, propext
Wamp.Spec.C109_dealer: Classical.choice, Quot.sound, propext
Wamp.Spec.C109_broker_alike: Classical.choice, Quot.sound, propext
Wamp.Spec.C109_dealer_alike: Classical.choice, Quot.sound, propext
Wamp.Spec.C109_broker_past: Classical.choice, Quot.sound, propext
Wamp.Spec.C109_dealer_past: Classical.choice, Quot.sound, propext
Wamp.C11_payload_round_trip: Classical.choice, Quot.sound, propext
Wamp.C11_encode_error: propext
Wamp.C11_none_serializer: Classical.choice, Quot.sound, propext
Wamp.C11_none_refuses: propext
Wamp.C11_unknown_serializer: Classical.choice, Quot.sound, propext
Wamp.Spec.C110_broker_inbox: Classical.choice, Quot.sound, propext
Wamp.Spec.C110_dealer_inbox: Classical.choice, Quot.sound, propext
Wamp.Spec.C110_publish: Classical.choice, Quot.sound, propext
Wamp.Spec.C110_call: Classical.choice, Quot.sound, propext
Wamp.Spec.C111_server: Classical.choice, Quot.sound, propext
Wamp.Spec.C112_wampcra: Quot.sound, propext
Wamp.Spec.C112_ticket: propext
Wamp.Spec.C112_cryptosign: Classical.choice, Quot.sound, propext
Wamp.Spec.C112_pbkdf2: Quot.sound, propext
Wamp.Acceptor.C113_no_trace: Classical.choice, Quot.sound, propext
Wamp.Acceptor.C113_trace: Classical.choice, Quot.sound, propext
Wamp.WAMPSession.C114_send: Classical.choice, Quot.sound, propext
Wamp.WAMPSession.C114_receive: Classical.choice, Quot.sound, propext
Wamp.Spec.Net.C115_somewhere_or_lost: Classical.choice, Quot.sound, propext
Wamp.Spec.Net.C115_for_ever: Classical.choice, Quot.sound, propext
Wamp.Spec.Net.C115_quiet: Classical.choice, Quot.sound, propext
Wamp.Acceptor.C116_server: Classical.choice, Quot.sound, propext
Wamp.Spec.Tenants.C117_broker: Classical.choice, Quot.sound, propext
Wamp.Spec.Tenants.C117_dealer_partial: Classical.choice, Quot.sound, propext
Wamp.Spec.Tenants.C117_dealer_false: Classical.choice, Quot.sound, propext
Wamp.Spec.AsNew.C118_broker: Classical.choice, Quot.sound, propext
Wamp.Spec.AsNew.C118_dealer_partial: Classical.choice, Quot.sound, propext
Wamp.Spec.AsNew.C118_dealer_exact: Classical.choice, Quot.sound, propext
Wamp.Spec.AsNew.C118_dealer_false: Classical.choice, Quot.sound, propext
Wamp.Spec.Net.C119_underway_or_lost: Classical.choice, Quot.sound, propext
Wamp.Spec.Net.C119_for_ever: Classical.choice, Quot.sound, propext
Wamp.C12_payload_accepted: Classical.choice, Quot.sound, propext
Wamp.C12_payload_rejected: Classical.choice, Quot.sound, propext
Wamp.C12_dict_payload: Classical.choice, Quot.sound, propext
Wamp.C12_other_values: Classical.choice, Quot.sound, propext
Wamp.Spec.Stack.C120_stack: Classical.choice, Quot.sound, propext
Wamp.Spec.Stack.C120_client_reads: Classical.choice, Quot.sound, propext
Wamp.Spec.Stack.C120_router_reads: Classical.choice, Quot.sound, propext
Wamp.Spec.Stack.C120_agreement: Classical.choice, Quot.sound, propext
Wamp.Spec.Stack.C121_broker: Classical.choice, Quot.sound, propext
Wamp.Spec.Stack.C121_dealer: Classical.choice, Quot.sound, propext
Wamp.Spec.Stack.C121_identity: Classical.choice, Quot.sound, propext
Wamp.Spec.Stack.C121_refused: Classical.choice, Quot.sound, propext
Wamp.Spec.Stack.C121_wampcra: Classical.choice, Quot.sound, propext
Wamp.Spec.Stack.C122_bystanders: Classical.choice, Quot.sound, propext
Wamp.Spec.Stack.C122_refused: Classical.choice, Quot.sound, propext
Wamp.Spec.Stack.C123_login_ends: Classical.choice, Quot.sound, propext
Wamp.Spec.Stack.C123_stays_ended: Classical.choice, Quot.sound, propext
Wamp.Spec.Stack.C123_no_deadlock: Classical.choice, Quot.sound, propext
Wamp.Spec.Stack.C124_gets_in: Classical.choice, Quot.sound, propext
Wamp.Spec.Stack.C124_wampcra: Classical.choice, Quot.sound, propext
Wamp.Spec.Stack.C124_ticket: Classical.choice, Quot.sound, propext
Wamp.Spec.Stack.C124_cryptosign: Classical.choice, Quot.sound, propext
Wamp.Spec.Stack.C124_anonymous: Classical.choice, Quot.sound, propext
Wamp.Spec.Stack.C125_network: Classical.choice, Quot.sound, propext
Wamp.Spec.Stack.C125_event: Classical.choice, Quot.sound, propext
Wamp.Spec.Stack.C125_invocation: Classical.choice, Quot.sound, propext
Wamp.Spec.Stack.C125_result: Classical.choice, Quot.sound, propext
Wamp.Spec.Stack.C125_error: Classical.choice, Quot.sound, propext
Wamp.Spec.Stack.C125_stream: Classical.choice, Quot.sound, propext
Wamp.Spec.Stack.C126_secrecy: Classical.choice, Quot.sound, propext
Wamp.Spec.Stack.C126_same_view: Classical.choice, Quot.sound, propext
Wamp.Spec.Stack.C127_comes_to_rest: Classical.choice, Quot.sound, propext
Wamp.Spec.Stack.C127_messages: Classical.choice, Quot.sound, propext
Wamp.Spec.Stack.C127_progress: Classical.choice, Quot.sound, propext
Wamp.Spec.Stack.C127_calls_answered: Classical.choice, Quot.sound, propext
Wamp.Spec.Stack.C127_requests_answered: Classical.choice, Quot.sound, propext
Wamp.Spec.Stack.C127_members: Classical.choice, Quot.sound, propext
Wamp.Spec.Present.C128_broker: Classical.choice, Quot.sound, propext
Wamp.Spec.Present.C128_broker_exact: Classical.choice, Quot.sound, propext
Wamp.Spec.Present.C128_publish: Classical.choice, Quot.sound, propext
Wamp.Spec.Present.C128_refused: Classical.choice, Quot.sound, propext
Wamp.Spec.Present.C128_dealer: Classical.choice, Quot.sound, propext
Wamp.Spec.Present.C128_dealer_exact: Classical.choice, Quot.sound, propext
Wamp.Spec.Present.C128_refused_dealer: Classical.choice, Quot.sound, propext
Wamp.Spec.Present.C128_answered: Classical.choice, Quot.sound, propext
Wamp.Spec.Stack.C129_up: Classical.choice, Quot.sound, propext
Wamp.Spec.Stack.C129_down: Classical.choice, Quot.sound, propext
Wamp.Spec.Stack.C129_at_rest: Classical.choice, Quot.sound, propext
Wamp.RawSocket.C13_header_round_trip: Quot.sound, propext
Wamp.RawSocket.C13_header_decode_encode: Classical.choice, Quot.sound, propext
Wamp.RawSocket.C13_bad_kind: Quot.sound, propext
Wamp.Spec.Stack.C130_calls: Classical.choice, Quot.sound, propext
Wamp.Spec.Stack.C130_requests: Classical.choice, Quot.sound, propext
Wamp.Spec.Stack.C130_calls_for_ever: Classical.choice, Quot.sound, propext
Wamp.Spec.Stack.C130_requests_for_ever: Classical.choice, Quot.sound, propext
Wamp.Spec.Stack.C131_order: Classical.choice, Quot.sound, propext
Wamp.Spec.Stack.C131_sessions: Classical.choice, Quot.sound, propext
Wamp.Spec.Stack.C131_same: Classical.choice, Quot.sound, propext
Wamp.Spec.Stack.C131_catch_up: Classical.choice, Quot.sound, propext
Wamp.Spec.Unrelated.C132_broker: Classical.choice, Quot.sound, propext
Wamp.Spec.Unrelated.C132_dealer: Classical.choice, Quot.sound, propext
Wamp.Spec.Unrelated.C132_same_topic: Classical.choice, Quot.sound, propext
Wamp.Spec.Unrelated.C132_same_procedure: Classical.choice, Quot.sound, propext
Wamp.Spec.Neighbours.C133_neighbours: Classical.choice, Quot.sound, propext
Wamp.Spec.Neighbours.C133_errors_needed: Classical.choice, Quot.sound, propext
Wamp.Spec.Newcomers.C134_newcomers: Classical.choice, Quot.sound, propext
Wamp.Spec.Newcomers.C134_ids_needed: Classical.choice, Quot.sound, propext
Wamp.Spec.Visitors.C135_left: Classical.choice, Quot.sound, propext
Wamp.Spec.Visitors.C135_published: Classical.choice, Quot.sound, propext
Wamp.Spec.Visitors.C135_granted: Classical.choice, Quot.sound, propext
Wamp.Spec.Undone.C136_left_broker: Classical.choice, Quot.sound, propext
Wamp.Spec.Undone.C136_unsubscribed: Classical.choice, Quot.sound, propext
Wamp.Spec.Undone.C136_left_dealer: Classical.choice, Quot.sound, propext
Wamp.Spec.Undone.C136_unregistered: Classical.choice, Quot.sound, propext
Wamp.Spec.Undone.C136_progress: Classical.choice, Quot.sound, propext
Wamp.Spec.Present.C128_answered: Classical.choice, Quot.sound, propext
Wamp.Spec.Undone.C136_failed_partial: Classical.choice, Quot.sound, propext
Wamp.Spec.Undone.C136_failed_false: Classical.choice, Quot.sound, propext
Wamp.Spec.Stack.C137_room: Classical.choice, Quot.sound, propext
Wamp.Spec.Stack.C137_broker_adds: Classical.choice, Quot.sound, propext
Wamp.Spec.Stack.C137_dealer_adds: Classical.choice, Quot.sound, propext
Wamp.Spec.Stack.C137_nothing_too_long: Classical.choice, Quot.sound, propext
Wamp.Spec.Stack.C137_stack: Classical.choice, Quot.sound, propext
Wamp.Spec.Stack.C137_tame: Classical.choice, Quot.sound, propext
Wamp.Spec.Stack.C137_sender_cannot_tell: Classical.choice, Quot.sound, propext
Wamp.Spec.Flood.C138_broker: Classical.choice, Quot.sound, propext
Wamp.Spec.Flood.C138_dealer: Classical.choice, Quot.sound, propext
Wamp.Spec.Flood.C138_no_flood: Classical.choice, Quot.sound, propext
Wamp.Spec.Flood.C138_own_count_twice: Classical.choice, Quot.sound, propext
Wamp.Spec.Asked.C139_broker: Classical.choice, Quot.sound, propext
Wamp.Spec.Asked.C139_dealer: Classical.choice, Quot.sound, propext
Wamp.Spec.Asked.C139_owed: Classical.choice, Quot.sound, propext
Wamp.Spec.Asked.C139_silent: Classical.choice, Quot.sound, propext
Wamp.RawSocket.C14_length_false: Classical.choice, Quot.sound, propext
Wamp.RawSocket.C14_length_partial: Classical.choice, Quot.sound, propext
Wamp.Spec.Tally.C140_no_more_answers: Classical.choice, Quot.sound, propext
Wamp.Spec.Tally.C140_once: Classical.choice, Quot.sound, propext
Wamp.Spec.Tally.C140_handed: Classical.choice, Quot.sound, propext
Wamp.Spec.Tally.C140_progress_not_counted: Classical.choice, Quot.sound, propext
Wamp.Spec.Tally.C141_last_word: Classical.choice, Quot.sound, propext
Wamp.Spec.Tally.C141_handed: Classical.choice, Quot.sound, propext
Wamp.Spec.Overheard.C142_nobody_overhears: Classical.choice, Quot.sound, propext
Wamp.Spec.Overheard.C142_topics_are_private: Classical.choice, Quot.sound, propext
Wamp.Spec.Overheard.C142_procedures_are_private: Classical.choice, Quot.sound, propext
Wamp.Spec.Overheard.C142_handed: Classical.choice, Quot.sound, propext
Wamp.Spec.Overheard.C142_errors_from_anybody: Classical.choice, Quot.sound, propext
Wamp.RawSocket.C15_handshake_round_trip: Classical.choice, Quot.sound, propext
Wamp.RawSocket.C15_handshake_exact: Classical.choice, Quot.sound, propext
Wamp.RawSocket.C15_other_sizes_fail: Quot.sound, propext
Wamp.RawSocket.C16_validation_false: propext
Wamp.RawSocket.C16_validation_partial: Classical.choice, Quot.sound, propext
Wamp.C17_ids_valid: Classical.choice, Quot.sound, propext
Wamp.C18_ids_unique: Classical.choice, Quot.sound, propext
Wamp.Broker.C19_exact_delivery: Classical.choice, Quot.sound, propext
Wamp.Broker.C19_subscribers_iff: Classical.choice, Quot.sound, propext
Wamp.Broker.C19_known_iff: Quot.sound, propext
Wamp.Broker.C19_unknown_publisher: Classical.choice, Quot.sound, propext
Wamp.Broker.C19_no_clash: Classical.choice, Quot.sound, propext
Wamp.Broker.C19_order: Classical.choice, Quot.sound, propext
Wamp.Broker.C20_event_contents: Classical.choice, Quot.sound, propext
Wamp.Broker.C20_held_id_is_replied: Classical.choice, Quot.sound, propext
Wamp.Broker.C21_topic_determines_id: Classical.choice, Quot.sound, propext
Wamp.Broker.C21_id_determines_topic: Classical.choice, Quot.sound, propext
Wamp.Broker.C21_ids_in_range: Classical.choice, Quot.sound, propext
Wamp.Broker.C22_subscribe_known: Classical.choice, Quot.sound, propext
Wamp.Broker.C22_subscribe_unknown: Classical.choice, Quot.sound, propext
Wamp.Broker.C22_delivery: Classical.choice, Quot.sound, propext
Wamp.Broker.C23_subscribe_idempotent: Classical.choice, Quot.sound, propext
Wamp.Broker.C23_delivery: Classical.choice, Quot.sound, propext
Wamp.Broker.C24_unsubscribe_held: Classical.choice, Quot.sound, propext
Wamp.Broker.C24_unsubscribe_not_held: Classical.choice, Quot.sound, propext
Wamp.Broker.C24_delivery: Classical.choice, Quot.sound, propext
Wamp.Broker.C25_remove_known: Classical.choice, Quot.sound, propext
Wamp.Broker.C25_remove_unknown: Classical.choice, Quot.sound, propext
Wamp.Broker.C25_never_recipient: Classical.choice, Quot.sound, propext
Wamp.Broker.C25_fails_after_wrap: Classical.choice, Quot.sound, propext
Wamp.Broker.C25_delivery: Classical.choice, Quot.sound, propext
Wamp.Broker.C26_has_subscription: Classical.choice, Quot.sound, propext
Wamp.Broker.C27_acknowledge: Classical.choice, Quot.sound, propext
Wamp.Broker.C28_publication_ids: Classical.choice, Quot.sound, propext
Wamp.Broker.C28_publication_ids_short: Classical.choice, Quot.sound, propext
Wamp.Broker.C29_failures_are_atomic: Classical.choice, Quot.sound, propext
Wamp.Dealer.C30_exclusive: Classical.choice, Quot.sound, propext
Wamp.Dealer.C30_register_free: Classical.choice, Quot.sound, propext
Wamp.Dealer.C30_register_taken: Classical.choice, Quot.sound, propext
Wamp.Dealer.C30_register_unknown: Classical.choice, Quot.sound, propext
Wamp.Dealer.C30_known_iff: Quot.sound, propext
Wamp.Dealer.C30_held_iff: Quot.sound, propext
Wamp.Dealer.C30_ids_not_exhausted: Classical.choice, Quot.sound, propext
Wamp.Dealer.C30_routing: Classical.choice, Quot.sound, propext
Wamp.Dealer.C30_routing_refused: Classical.choice, Quot.sound, propext
Wamp.Dealer.C31_call_routed: Classical.choice, Quot.sound, propext
Wamp.Dealer.C31_call_no_such_procedure: Classical.choice, Quot.sound, propext
Wamp.Dealer.C32_accepted_yield: Classical.choice, Quot.sound, propext
Wamp.Dealer.C32_result_routing_partial: Classical.choice, Quot.sound, propext
Wamp.Dealer.C32_noReuse_of_distinct: Classical.choice, Quot.sound, propext
Wamp.Dealer.C32_fails_for_reused_request_id: Classical.choice, Quot.sound, propext
Wamp.Dealer.C32_exact: Classical.choice, Quot.sound, propext
Wamp.Dealer.C33_yield_authorisation: Classical.choice, Quot.sound, propext
Wamp.Dealer.C33_pending_iff: Classical.choice, Quot.sound, propext
Wamp.Dealer.C34_error_authorisation_fails: Classical.choice, Quot.sound, propext
Wamp.Dealer.C34_not_authorised: Classical.choice, Quot.sound, propext
Wamp.Dealer.C34_error_authorisation_partial: Classical.choice, Quot.sound, propext
Wamp.Dealer.C34_exact: Classical.choice, Quot.sound, propext
Wamp.Dealer.C35_error_routed: Classical.choice, Quot.sound, propext
Wamp.Dealer.C35_error_rejected: Classical.choice, Quot.sound, propext
Wamp.Dealer.C35_call_ended: Classical.choice, Quot.sound, propext
Wamp.Dealer.C36_one_final_outcome: Classical.choice, Quot.sound, propext
Wamp.Dealer.C37_new_invocation_partial: Classical.choice, Quot.sound, propext
Wamp.Dealer.C37_plain_call_partial: Classical.choice, Quot.sound, propext
Wamp.Dealer.C37_continuation_partial: Classical.choice, Quot.sound, propext
Wamp.Dealer.C37_fails_for_stale_continuation: Classical.choice, Quot.sound, propext
Wamp.Dealer.C37_exact: Classical.choice, Quot.sound, propext
Wamp.Dealer.C38_fresh_invocation_id: Classical.choice, Quot.sound, propext
Wamp.Dealer.C38_fails_after_wrap: Classical.choice, Quot.sound, propext
Wamp.Dealer.C39_progressive_results: Classical.choice, Quot.sound, propext
Wamp.Dealer.C40_continuation_partial: Classical.choice, Quot.sound, propext
Wamp.Dealer.C40_fails_for_other_callee: Classical.choice, Quot.sound, propext
Wamp.Dealer.C40_exact: Classical.choice, Quot.sound, propext
Wamp.Dealer.C41_unregister_held: Classical.choice, Quot.sound, propext
Wamp.Dealer.C41_unregister_not_held: Classical.choice, Quot.sound, propext
Wamp.Dealer.C41_routing: Classical.choice, Quot.sound, propext
Wamp.Dealer.C42_remove_known: Classical.choice, Quot.sound, propext
Wamp.Dealer.C42_remove_unknown: Classical.choice, Quot.sound, propext
Wamp.Dealer.C42_never_called: Classical.choice, Quot.sound, propext
Wamp.Dealer.C42_routing: Classical.choice, Quot.sound, propext
Wamp.Dealer.C43_departed_callee_fails: Classical.choice, Quot.sound, propext
Wamp.Dealer.C43_other_calls_unaffected_partial: Classical.choice, Quot.sound, propext
Wamp.Dealer.C43_exact: Classical.choice, Quot.sound, propext
Wamp.Dealer.C44_has_registration: Classical.choice, Quot.sound, propext
Wamp.Dealer.C45_failures: Classical.choice, Quot.sound, propext
Wamp.Dealer.C45_failures_are_atomic_partial: Classical.choice, Quot.sound, propext
Wamp.Dealer.C45_fails_for_reused_request_id: Classical.choice, Quot.sound, propext
Wamp.Dealer.C45_exact: Classical.choice, Quot.sound, propext
Wamp.WAMPSession.C46_reply_iff_outstanding: Classical.choice, Quot.sound, propext
Wamp.WAMPSession.C46_unsubscribed: Classical.choice, Quot.sound, propext
Wamp.WAMPSession.C46_unregistered: Classical.choice, Quot.sound, propext
Wamp.WAMPSession.C46_outstanding_names: Classical.choice, Quot.sound, propext
Wamp.WAMPSession.C46_other_rejected: Classical.choice, Quot.sound, propext
Wamp.WAMPSession.C46_undecodable: Classical.choice, Quot.sound, propext
Wamp.WAMPSession.C46_receive_bytes: Classical.choice, Quot.sound, propext
Wamp.WAMPSession.C46_replies_match_requests_partial: Classical.choice, Quot.sound, propext
Wamp.WAMPSession.C46_fails_unsubscribed: Classical.choice, Quot.sound, propext
Wamp.WAMPSession.C46_accepted_exact: Classical.choice, Quot.sound, propext
Wamp.WAMPSession.C46_refused_exact: Classical.choice, Quot.sound, propext
Wamp.WAMPSession.C47_answered_at_most_once: Classical.choice, Quot.sound, propext
Wamp.WAMPSession.C48_event_iff_granted: Classical.choice, Quot.sound, propext
Wamp.WAMPSession.C48_invocation_iff_granted: Classical.choice, Quot.sound, propext
Wamp.WAMPSession.C49_yield_iff_unanswered: Classical.choice, Quot.sound, propext
Wamp.WAMPSession.C49_yield_at_most_once: Classical.choice, Quot.sound, propext
Wamp.WAMPSession.C49_error_only_for_invocations: Classical.choice, Quot.sound, propext
Wamp.WAMPSession.C50_fails_result: Classical.choice, Quot.sound, propext
Wamp.WAMPSession.C50_fails_witness: Classical.choice, Quot.sound, propext
Wamp.WAMPSession.C50_fails_yield: Classical.choice, Quot.sound, propext
Wamp.WAMPSession.C50_progressive_partial: Classical.choice, Quot.sound, propext
Wamp.WAMPSession.C51_independent: Classical.choice, Quot.sound, propext
Wamp.WAMPSession.C51_withdrawal_partial: Classical.choice, Quot.sound, propext
Wamp.WAMPSession.C51_fails_unsubscribed: Classical.choice, Quot.sound, propext
Wamp.WAMPSession.C52_fails_serializer: Classical.choice, Quot.sound, propext
Wamp.WAMPSession.C52_failed_send_partial: Classical.choice, Quot.sound, propext
Wamp.WAMPSession.C52_counts_as_sent: Classical.choice, Quot.sound, propext
Wamp.Acceptor.C53_welcome_justified: Classical.choice, Quot.sound, propext
Wamp.Acceptor.C53_welcome_fields: Classical.choice, Quot.sound, propext
Wamp.Acceptor.C54_wampcra_welcome: Classical.choice, Quot.sound, propext
Wamp.Acceptor.C54_wampcra_accepted: Classical.choice, Quot.sound, propext
Wamp.Acceptor.C55_replay: Classical.choice, Quot.sound, propext
Wamp.Acceptor.C55_cryptosign_welcome_false: Classical.choice, Quot.sound, propext
Wamp.Acceptor.C55_cryptosign_welcome_partial: Classical.choice, Quot.sound, propext
Wamp.Acceptor.C55_exact: Classical.choice, Quot.sound, propext
Wamp.Acceptor.C56_at_most_one_welcome: Classical.choice, Quot.sound, propext
Wamp.Acceptor.C56_closed_after_welcome: Classical.choice, Quot.sound, propext
Wamp.Acceptor.C57_abort_terminal_partial: Classical.choice, Quot.sound, propext
Wamp.Acceptor.C57_rejected_hello_retry: Classical.choice, Quot.sound, propext
Wamp.Acceptor.C57_rejected_ticket_retry: Classical.choice, Quot.sound, propext
Wamp.Acceptor.C57_aborted_exact: Classical.choice, Quot.sound, propext
Wamp.Acceptor.C57_rejection_forgotten: Classical.choice, Quot.sound, propext
Wamp.Acceptor.C58_session_details: Classical.choice, Quot.sound, propext
Wamp.Acceptor.C58_not_yet: Classical.choice, Quot.sound, propext
Wamp.Acceptor.C58_emitted: Classical.choice, Quot.sound, propext
Wamp.Acceptor.C59_authenticate_needs_challenge: Classical.choice, Quot.sound, propext
Wamp.Acceptor.C59_no_second_hello: Classical.choice, Quot.sound, propext
Wamp.Acceptor.C60_receive_reply: Classical.choice, Quot.sound, propext
Wamp.Acceptor.C60_receive_state: Classical.choice, Quot.sound, propext
Wamp.Acceptor.C60_fails_abort: Classical.choice, Quot.sound, propext
Wamp.Acceptor.C60_fails_no_authextra: Classical.choice, Quot.sound, propext
Wamp.Acceptor.C60_always_answers_partial: Classical.choice, Quot.sound, propext
Wamp.Acceptor.C60_exact: Classical.choice, Quot.sound, propext
Wamp.Joiner.C61_welcome: Quot.sound, propext
Wamp.Joiner.C61_challenge: Quot.sound, propext
Wamp.Joiner.C61_other: Quot.sound, propext
Wamp.Joiner.C61_details: Quot.sound, propext
Wamp.Joiner.C61_no_details: Quot.sound, propext
Wamp.Joiner.C61_hello_contents: Quot.sound, propext
Wamp.Joiner.C61_receive_bytes: Classical.choice, Quot.sound, propext
Wamp.Joiner.C62_abort: Quot.sound, propext
Wamp.Joiner.C62_abort_bytes: Classical.choice, Quot.sound, propext
Wamp.C63_no_authenticator: Classical.choice, Quot.sound, propext
Wamp.C63_anonymous: Classical.choice, Quot.sound, propext
Wamp.C63_ticket: Classical.choice, Quot.sound, propext
Wamp.C63_wampcra: Classical.choice, Quot.sound, propext
Wamp.C63_cryptosign: Classical.choice, Quot.sound, propext
Wamp.C63_details_compare_equal: propext
Wamp.C64_verify_iff: Classical.choice, Quot.sound, propext
Wamp.C64_verify_total: Classical.choice, Quot.sound, propext
Wamp.C64_sign_verifies: Classical.choice, Quot.sound, propext
Wamp.C64_no_other: Classical.choice, Quot.sound, propext
Wamp.C65_client_salted: propext
Wamp.C65_client_refuses: Quot.sound, propext
Wamp.C65_client_plain: propext
Wamp.C65_salt_unreadable: propext
Wamp.Acceptor.C65_acceptor_never_announces_salt: Classical.choice, Quot.sound, propext
Wamp.Acceptor.C65_salted_login_fails: Classical.choice, Quot.sound, propext
Wamp.C66_sign_verifies: Classical.choice, Quot.sound, propext
Wamp.C66_own_challenges: Classical.choice, Quot.sound, propext
Wamp.C66_verify_iff: Classical.choice, Quot.sound, propext
Wamp.C66_bad_challenge: Classical.choice, Quot.sound, propext
Wamp.C66_keypair: Classical.choice, Quot.sound, propext
Wamp.Spec.Net.C67_who_sends_what: Classical.choice, Quot.sound, propext
Wamp.Spec.Net.C67_client_never_rejects: Classical.choice, Quot.sound, propext
Wamp.Spec.Net.C67_unsubscribe_accepted: Classical.choice, Quot.sound, propext
Wamp.Spec.Net.C67_agreement: Classical.choice, Quot.sound, propext
Wamp.Spec.Net.C67_needs_fresh_request_ids: Classical.choice, Quot.sound, propext
Wamp.Spec.Net.C68_client_never_rejects_partial: Classical.choice, Quot.sound, propext
Wamp.Spec.Net.C68_dealer_never_rejects_partial: Classical.choice, Quot.sound, propext
Wamp.Spec.Net.C68_agreement_partial: Classical.choice, Quot.sound, propext
Wamp.Spec.Net.C68_fails_for_unsolicited_error: Classical.choice, Quot.sound, propext
Wamp.Spec.Net.C68_fails_for_rogue_error: Classical.choice, Quot.sound, propext
Wamp.Spec.Net.C68_needs_distinct_sessions: Classical.choice, Quot.sound, propext
Wamp.Spec.Net.C68_needs_fresh_request_ids: Classical.choice, Quot.sound, propext
Wamp.Spec.Net.C68_needs_plain_calls: Classical.choice, Quot.sound, propext
Wamp.Legacy.C69_strings: Quot.sound, propext
Wamp.Legacy.C69_details: Quot.sound, propext
Wamp.Legacy.C69_session_id_partial: Classical.choice, Quot.sound, propext
Wamp.Legacy.C69_fails_zero: propext
Wamp.Legacy.C70_shows_everything: Quot.sound, propext
Wamp.Legacy.C70_bare_iff: Classical.choice, Quot.sound, propext
Wamp.Legacy.C70_error_shows_everything: Quot.sound, propext
Wamp.Legacy.C70_error_bare_iff: Classical.choice, Quot.sound, propext
Wamp.Spec.Net.C71_result: Classical.choice, Quot.sound, propext
Wamp.Spec.Net.C71_error: Classical.choice, Quot.sound, propext
Wamp.Spec.Net.C71_invocation: Classical.choice, Quot.sound, propext
Wamp.Spec.Net.C71_one_answer: Classical.choice, Quot.sound, propext
Wamp.Spec.Net.C71_needs_errors_answer: Classical.choice, Quot.sound, propext
Wamp.Spec.Net.C72_where_calls_are_partial: Classical.choice, Quot.sound, propext
Wamp.Spec.Net.C72_quiet_partial: Classical.choice, Quot.sound, propext
Wamp.Spec.Net.C72_fails_when_callee_leaves: Classical.choice, Quot.sound, propext
Wamp.Dealer.C73_invocation_payload_partial: Classical.choice, Quot.sound, propext
Wamp.Dealer.C73_invocation_denies_binary: Classical.choice, Quot.sound, propext
Wamp.Dealer.C73_result_drops_payload: Classical.choice, Quot.sound, propext
Wamp.Dealer.C73_fails: Classical.choice, Quot.sound, propext
Wamp.Spec.Net.C74_exactly_once_in_order: Classical.choice, Quot.sound, propext
Wamp.Spec.Net.C74_ids_increase: Classical.choice, Quot.sound, propext
Wamp.Spec.Net.C74_publisher_order: Classical.choice, Quot.sound, propext
Wamp.Spec.Net.C74_accepted: Classical.choice, Quot.sound, propext
Wamp.Spec.Net.C75_requests_partial: Classical.choice, Quot.sound, propext
Wamp.Spec.Net.C75_unsubscribe_partial: Classical.choice, Quot.sound, propext
Wamp.Spec.Net.C75_unregister_partial: Classical.choice, Quot.sound, propext
Wamp.Spec.Net.C75_nothing_waits_partial: Classical.choice, Quot.sound, propext
Wamp.Spec.Net.C75_fails_unsubscribe_not_held: Classical.choice, Quot.sound, propext
Wamp.Spec.Net.C75_fails_unregister_not_held: Classical.choice, Quot.sound, propext
Wamp.WAMPSession.C76_send: Classical.choice, Quot.sound, propext
Wamp.WAMPSession.C76_goodbye_abort: Classical.choice, Quot.sound, propext
Wamp.WAMPSession.C76_receive_returns: Classical.choice, Quot.sound, propext
Wamp.WAMPSession.C76_error_answers: Classical.choice, Quot.sound, propext
Wamp.WAMPSession.C77_situation_decides: Classical.choice, Quot.sound, propext
Wamp.WAMPSession.C77_situation_shows: Classical.choice, Quot.sound, propext
Wamp.RawSocket.C78_round_trip: Quot.sound, propext
Wamp.RawSocket.C78_one_reading: Classical.choice, Quot.sound, propext
Wamp.RawSocket.C78_nothing_lost: Classical.choice, Quot.sound, propext
Wamp.RawSocket.C78_chunks: Classical.choice, Quot.sound, propext
Wamp.RawSocket.C78_prefix: Classical.choice, Quot.sound, propext
Wamp.Broker.C79_broker_is_table: Classical.choice, Quot.sound, propext
Wamp.Dealer.C80_dealer_is_table: Classical.choice, Quot.sound, propext
Wamp.Spec.Net.C81_bytes_refine_messages: Classical.choice, Quot.sound, propext
Wamp.Spec.Net.C81_router_reads: Classical.choice, Quot.sound, propext
Wamp.Spec.Net.C81_client_never_rejects: Classical.choice, Quot.sound, propext
Wamp.Spec.Net.C81_agreement: Classical.choice, Quot.sound, propext
Wamp.Spec.Net.C81_event: Classical.choice, Quot.sound, propext
Wamp.Spec.Net.C81_invocation: Classical.choice, Quot.sound, propext
Wamp.Spec.Net.C81_result: Classical.choice, Quot.sound, propext
Wamp.Spec.Net.json_dataSet: Classical.choice, Quot.sound, propext
Wamp.Spec.Net.C82_comes_to_rest: Classical.choice, Quot.sound, propext
Wamp.Spec.Net.C82_progress: Classical.choice, Quot.sound, propext
Wamp.Spec.Net.C82_can_finish: Classical.choice, Quot.sound, propext
Wamp.Spec.Net.C82_calls_finish: Classical.choice, Quot.sound, propext
Wamp.Spec.Net.C82_calls_finish_or_lost: Classical.choice, Quot.sound, propext
Wamp.Spec.Net.C82_requests_finish: Classical.choice, Quot.sound, propext
Wamp.Sharing.C83_options_partial: Classical.choice, Quot.sound, propext
Wamp.Sharing.C83_messages_by_value_partial: Classical.choice, Quot.sound, propext
Wamp.Sharing.C83_own_dict: Classical.choice, Quot.sound, propext
Wamp.Sharing.C83_exact: Classical.choice, Quot.sound, propext
Wamp.Sharing.C83_false: Classical.choice, Quot.sound, propext
Wamp.Sharing.C83_false_serializers: Classical.choice, Quot.sound, propext
Wamp.Sharing.C84_announced_partial: Classical.choice, Quot.sound, propext
Wamp.Sharing.C84_own_key: Classical.choice, Quot.sound, propext
Wamp.Sharing.C84_false: Classical.choice, Quot.sound, propext
Wamp.C85_anonymous: Classical.choice, Quot.sound, propext
Wamp.C85_ticket: Classical.choice, Quot.sound, propext
Wamp.C85_wampcra_refused: Classical.choice, Quot.sound, propext
Wamp.C85_wampcra_wrong_secret: Classical.choice, Quot.sound, propext
Wamp.C85_cryptosign_refused: Classical.choice, Quot.sound, propext
Wamp.C85_cryptosign_wrong_key: Classical.choice, Quot.sound, propext
Wamp.Broker.C86_broker: Classical.choice, Quot.sound, propext
Wamp.Dealer.C86_dealer_partial: Classical.choice, Quot.sound, propext
Wamp.Dealer.C86_invocation_partial: Classical.choice, Quot.sound, propext
Wamp.Dealer.C86_nobody_left_partial: Classical.choice, Quot.sound, propext
Wamp.Dealer.C86_fails_when_caller_leaves: Classical.choice, Quot.sound, propext
Wamp.Dealer.C86_fails_to_stranger: Classical.choice, Quot.sound, propext
Wamp.Dealer.C86_fails_for_stranger: Classical.choice, Quot.sound, propext
Wamp.Dealer.C86_exact: Classical.choice, Quot.sound, propext
Wamp.Broker.C87_broker: Classical.choice, Quot.sound, propext
Wamp.Broker.C87_broker_empty: Classical.choice, Quot.sound, propext
Wamp.Dealer.C87_dealer_partial: Classical.choice, Quot.sound, propext
Wamp.Dealer.C87_dealer_empty_partial: Classical.choice, Quot.sound, propext
Wamp.Dealer.C87_fails_for_pending_calls: Classical.choice, Quot.sound, propext
Wamp.Dealer.C87_fails_after_error: Classical.choice, Quot.sound, propext
Wamp.Dealer.C87_exact: Classical.choice, Quot.sound, propext
Wamp.Spec.C88_restores: Classical.choice, Quot.sound, propext
Wamp.Spec.C88_messages: Classical.choice, Quot.sound, propext
Wamp.Spec.C88_payloads: Classical.choice, Quot.sound, propext
Wamp.Spec.Net.C89_formats_refine_messages: Classical.choice, Quot.sound, propext
Wamp.Spec.Net.C89_router_reads: Classical.choice, Quot.sound, propext
Wamp.Spec.Net.C89_client_never_rejects: Classical.choice, Quot.sound, propext
Wamp.Spec.Net.C89_agreement: Classical.choice, Quot.sound, propext
Wamp.Spec.Net.C89_contents: Classical.choice, Quot.sound, propext
Wamp.Spec.C90_writes_truly_partial: Classical.choice, Quot.sound, propext
Wamp.Spec.C90_writes_truly_false: Classical.choice, Quot.sound, propext
Wamp.Spec.C90_msgpack_unreadable: Classical.choice, Quot.sound, propext
Wamp.Spec.C90_json_loses_entry: Classical.choice, Quot.sound, propext
Wamp.Spec.C90_json: Classical.choice, Quot.sound, propext
Wamp.Spec.C90_msgpack: Classical.choice, Quot.sound, propext
Wamp.Spec.C90_cbor: Classical.choice, Quot.sound, propext
Wamp.Spec.C90_exact: Classical.choice, Quot.sound, propext
Wamp.Spec.C91_one_message_partial: Classical.choice, Quot.sound, propext
Wamp.Spec.C91_one_message_false: Classical.choice, Quot.sound, propext
Wamp.Spec.C91_json: Classical.choice, Quot.sound, propext
Wamp.Spec.C91_msgpack: Classical.choice, Quot.sound, propext
Wamp.Spec.C91_cbor: Classical.choice, Quot.sound, propext
Wamp.Spec.C92_truncated: Classical.choice, Quot.sound, propext
Wamp.C93_entries_true: Classical.choice, Quot.sound, propext
Wamp.C93_some_entry: Classical.choice, Quot.sound, propext
Wamp.C93_wrong_length: Classical.choice, Quot.sound, propext
Wamp.C94_challenge_contents: Classical.choice, Quot.sound, propext
Wamp.C94_challenges_differ: Classical.choice, Quot.sound, propext
Wamp.Acceptor.C94_challenge_sent: Classical.choice, Quot.sound, propext
Wamp.Acceptor.C94_no_replay: Classical.choice, Quot.sound, propext
Wamp.C95_no_authenticator: Classical.choice, Quot.sound, propext
Wamp.C95_anonymous: Classical.choice, Quot.sound, propext
Wamp.C95_ticket: Classical.choice, Quot.sound, propext
Wamp.C95_wampcra: Classical.choice, Quot.sound, propext
Wamp.C95_cryptosign: Classical.choice, Quot.sound, propext
Wamp.C96_hex_text: Classical.choice, Quot.sound, propext
Wamp.C96_hex_read: Classical.choice, Quot.sound, propext
Wamp.C96_base64_text: Classical.choice, Quot.sound, propext
Wamp.C96_wampcra_signature: Classical.choice, Quot.sound, propext
Wamp.C96_derived_key: Classical.choice, Quot.sound, propext
Wamp.C96_cryptosign_texts: Classical.choice, Quot.sound, propext
Wamp.C96_cryptosign_signature: Classical.choice, Quot.sound, propext
Wamp.Acceptor.C97_wampcra_text_partial: Classical.choice, Quot.sound, propext
Wamp.Acceptor.C97_cryptosign_text_partial: Classical.choice, Quot.sound, propext
Wamp.Acceptor.C97_exact: Classical.choice, Quot.sound, propext
Wamp.Acceptor.C97_one_text_false: Classical.choice, Quot.sound, propext
Wamp.C97_foreign_character: Classical.choice, Quot.sound, propext
Wamp.C97_appended_text: Classical.choice, Quot.sound, propext
Wamp.C98_to_message: Classical.choice, Quot.sound, propext
Wamp.C98_parse_own: Classical.choice, Quot.sound, propext
Wamp.C98_parse_foreign: Classical.choice, Quot.sound, propext
Wamp.C98_every_class: Classical.choice, Quot.sound, propext
Wamp.Dealer.C99_parts_partial: Classical.choice, Quot.sound, propext
Wamp.Dealer.C99_answer_partial: Classical.choice, Quot.sound, propext
Wamp.Dealer.C99_last_part_false: Classical.choice, Quot.sound, propext
Wamp.Dealer.C99_second_answer_lost: Classical.choice, Quot.sound, propext
