"""Writes MANIFEST.json from the table below."""
import json, os
T = {
 "C01": ("proved", ["Wamp.C01_received", "Wamp.C01_wire_round_trip"], ""),
 "C02": ("partial", ["Wamp.C02_abort_diagnostics_false", "Wamp.C02_abort_diagnostics_partial"], "False of the code: marshal drops ABORT args/kwargs. Details and reason arrive."),
 "C03": ("partial", ["Wamp.C03_binary_payload_false", "Wamp.C03_binary_payload_partial"], "False of the code: payload bytes are never marshalled. Serializer id arrives only as x_payload_serializer."),
 "C04": ("proved", ["Wamp.C04_parse_soundness"], ""),
 "C05": ("proved", ["Wamp.C05_parse_completeness"], ""),
 "C06": ("partial", ["Wamp.C06_clean_failure_false", "Wamp.C06_clean_failure_partial"], "False only for the empty list (IndexError)."),
 "C07": ("proved", ["Wamp.C07_relay_transparency"], ""),
 "C08": ("proved", ["Wamp.C08_dispatch", "Wamp.C08_unknown_rejected", "Wamp.C08_not_a_list", "Wamp.C08_codes"], ""),
 "C09": ("proved", ["Wamp.C09_complete_error_report"], ""),
 "C10": ("proved", ["Wamp.C10_serializer_round_trip", "Wamp.C10_serializer_received", "Wamp.C10_deserialize_valid", "Wamp.C10_deserialize_errors", "Wamp.WAMPSession.C46_receive_bytes", "Wamp.Joiner.C61_receive_bytes", "Wamp.Acceptor.C60_receive_reply", "Wamp.Acceptor.C60_receive_state"], "The codec is a parameter; that it restores the marshalled list is a hypothesis, as the property says."),
 "C11": ("proved", ["Wamp.C11_payload_round_trip", "Wamp.C11_encode_error", "Wamp.C11_none_serializer", "Wamp.C11_none_refuses", "Wamp.C11_unknown_serializer"], "The codec is a parameter."),
 "C12": ("proved", ["Wamp.C12_payload_accepted", "Wamp.C12_payload_rejected", "Wamp.C12_dict_payload", "Wamp.C12_other_values"], "Extra finding: a decoded dict with int keys 0/1 is accepted as if it were a list, or raises KeyError."),
 "C13": ("proved", ["Wamp.RawSocket.C13_header_round_trip", "Wamp.RawSocket.C13_header_decode_encode", "Wamp.RawSocket.C13_bad_kind"], ""),
 "C14": ("partial", ["Wamp.RawSocket.C14_length_false", "Wamp.RawSocket.C14_length_partial"], "False of the code: the length is truncated modulo 2**24."),
 "C15": ("proved", ["Wamp.RawSocket.C15_handshake_round_trip", "Wamp.RawSocket.C15_handshake_exact", "Wamp.RawSocket.C15_other_sizes_fail"], ""),
 "C16": ("partial", ["Wamp.RawSocket.C16_validation_false", "Wamp.RawSocket.C16_validation_partial"], "False of the code: one non-zero reserved byte is accepted ('and' instead of 'or')."),
 "C17": ("proved", ["Wamp.C17_ids_valid"], ""),
 "C18": ("proved", ["Wamp.C18_ids_unique"], ""),
 "C19": ("proved", ['Wamp.Broker.C19_exact_delivery', 'Wamp.Broker.C19_subscribers_iff', 'Wamp.Broker.C19_known_iff', 'Wamp.Broker.C19_unknown_publisher', 'Wamp.Broker.C19_no_clash', 'Wamp.Broker.C19_order'], "Hypothesis NoClash (no session handed an id it already holds for another topic) is the property's own quantifier; C19_no_clash discharges it for every history of at most 2**53 calls."),
 "C20": ("proved", ['Wamp.Broker.C20_event_contents', 'Wamp.Broker.C20_held_id_is_replied'], ''),
 "C21": ("proved", ['Wamp.Broker.C21_topic_determines_id', 'Wamp.Broker.C21_id_determines_topic', 'Wamp.Broker.C21_ids_in_range'], ''),
 "C22": ("proved", ['Wamp.Broker.C22_subscribe_known', 'Wamp.Broker.C22_subscribe_unknown', 'Wamp.Broker.C22_delivery'], ''),
 "C23": ("proved", ['Wamp.Broker.C23_subscribe_idempotent', 'Wamp.Broker.C23_delivery'], ''),
 "C24": ("proved", ['Wamp.Broker.C24_unsubscribe_held', 'Wamp.Broker.C24_unsubscribe_not_held', 'Wamp.Broker.C24_delivery'], ''),
 "C25": ("proved", ['Wamp.Broker.C25_remove_known', 'Wamp.Broker.C25_remove_unknown', 'Wamp.Broker.C25_never_recipient', 'Wamp.Broker.C25_fails_after_wrap', 'Wamp.Broker.C25_delivery'], 'C25_fails_after_wrap: a concrete history of more than 2**53 calls shows the NoClash hypothesis is needed.'),
 "C26": ("proved", ['Wamp.Broker.C26_has_subscription'], ''),
 "C27": ("proved", ['Wamp.Broker.C27_acknowledge'], ''),
 "C28": ("proved", ['Wamp.Broker.C28_publication_ids', 'Wamp.Broker.C28_publication_ids_short'], ''),
 "C29": ("proved", ['Wamp.Broker.C29_failures_are_atomic'], ''),
 "C30": ("proved", ['Wamp.Dealer.C30_exclusive', 'Wamp.Dealer.C30_register_free', 'Wamp.Dealer.C30_register_taken', 'Wamp.Dealer.C30_register_unknown', 'Wamp.Dealer.C30_known_iff', 'Wamp.Dealer.C30_held_iff', 'Wamp.Dealer.C30_ids_not_exhausted', 'Wamp.Dealer.C30_routing', 'Wamp.Dealer.C30_routing_refused'], 'Histories drawing fewer than 2**53 ids, which includes every history of fewer than 2**53 calls (C30_ids_not_exhausted).'),
 "C31": ("proved", ['Wamp.Dealer.C31_call_routed', 'Wamp.Dealer.C31_call_no_such_procedure'], 'Histories drawing fewer than 2**53 ids, which includes every history of fewer than 2**53 calls (C30_ids_not_exhausted).'),
 "C32": ("partial", ['Wamp.Dealer.C32_accepted_yield', 'Wamp.Dealer.C32_result_routing_partial', 'Wamp.Dealer.C32_noReuse_of_distinct', 'Wamp.Dealer.C32_fails_for_reused_request_id', 'Wamp.Dealer.C32_exact'], 'Every accepted YIELD is routed correctly. Acceptance is proved if that caller never reuses the request id of a pending call; otherwise it is false (KeyError). C32_exact: the exact condition, with no assumption on the clients.'),
 "C33": ("proved", ['Wamp.Dealer.C33_yield_authorisation', 'Wamp.Dealer.C33_pending_iff'], 'Histories drawing fewer than 2**53 ids, which includes every history of fewer than 2**53 calls (C30_ids_not_exhausted).'),
 "C34": ("partial", ['Wamp.Dealer.C34_error_authorisation_fails', 'Wamp.Dealer.C34_not_authorised', 'Wamp.Dealer.C34_error_authorisation_partial', 'Wamp.Dealer.C34_exact'], 'False of the code: the sender of an ERROR is never compared with the callee.'),
 "C35": ("proved", ['Wamp.Dealer.C35_error_routed', 'Wamp.Dealer.C35_error_rejected', 'Wamp.Dealer.C35_call_ended'], 'Histories drawing fewer than 2**53 ids, which includes every history of fewer than 2**53 calls (C30_ids_not_exhausted).'),
 "C36": ("proved", ['Wamp.Dealer.C36_one_final_outcome'], 'Histories drawing fewer than 2**53 ids, which includes every history of fewer than 2**53 calls (C30_ids_not_exhausted).'),
 "C37": ("partial", ['Wamp.Dealer.C37_new_invocation_partial', 'Wamp.Dealer.C37_plain_call_partial', 'Wamp.Dealer.C37_continuation_partial', 'Wamp.Dealer.C37_fails_for_stale_continuation', 'Wamp.Dealer.C37_exact'], 'False of the code for a progressive CALL continuing a call that was ended by an ERROR. C37_exact: exactly which INVOCATIONs can be answered.'),
 "C38": ("proved", ['Wamp.Dealer.C38_fresh_invocation_id', 'Wamp.Dealer.C38_fails_after_wrap'], 'C38_fails_after_wrap: why the bound is needed. Histories drawing fewer than 2**53 ids, which includes every history of fewer than 2**53 calls (C30_ids_not_exhausted).'),
 "C39": ("proved", ['Wamp.Dealer.C39_progressive_results'], 'Histories drawing fewer than 2**53 ids, which includes every history of fewer than 2**53 calls (C30_ids_not_exhausted).'),
 "C40": ("partial", ['Wamp.Dealer.C40_continuation_partial', 'Wamp.Dealer.C40_fails_for_other_callee', 'Wamp.Dealer.C40_exact'], 'Same invocation id: proved. Same callee: false of the code. C40_exact: exactly which INVOCATION a progressive CALL becomes, with no assumption on the clients.'),
 "C41": ("proved", ['Wamp.Dealer.C41_unregister_held', 'Wamp.Dealer.C41_unregister_not_held', 'Wamp.Dealer.C41_routing'], 'Histories drawing fewer than 2**53 ids, which includes every history of fewer than 2**53 calls (C30_ids_not_exhausted).'),
 "C42": ("proved", ['Wamp.Dealer.C42_remove_known', 'Wamp.Dealer.C42_remove_unknown', 'Wamp.Dealer.C42_never_called', 'Wamp.Dealer.C42_routing'], 'Histories drawing fewer than 2**53 ids, which includes every history of fewer than 2**53 calls (C30_ids_not_exhausted).'),
 "C43": ("partial", ['Wamp.Dealer.C43_departed_callee_fails', 'Wamp.Dealer.C43_other_calls_unaffected_partial', 'Wamp.Dealer.C43_exact'], 'False of the code: remove_session does not look at pending calls.'),
 "C44": ("proved", ['Wamp.Dealer.C44_has_registration'], ''),
 "C45": ("partial", ['Wamp.Dealer.C45_failures', 'Wamp.Dealer.C45_failures_are_atomic_partial', 'Wamp.Dealer.C45_fails_for_reused_request_id', 'Wamp.Dealer.C45_exact'], 'False of the code when a caller reuses the request id of a pending call. C45_exact: exactly which calls raise something else than ValueError.'),
 "C46": ("partial", ['Wamp.WAMPSession.C46_reply_iff_outstanding', 'Wamp.WAMPSession.C46_unsubscribed', 'Wamp.WAMPSession.C46_unregistered', 'Wamp.WAMPSession.C46_outstanding_names', 'Wamp.WAMPSession.C46_other_rejected', 'Wamp.WAMPSession.C46_undecodable', 'Wamp.WAMPSession.C46_receive_bytes', 'Wamp.WAMPSession.C46_replies_match_requests_partial', 'Wamp.WAMPSession.C46_fails_unsubscribed', 'Wamp.WAMPSession.C46_accepted_exact', 'Wamp.WAMPSession.C46_refused_exact'], 'Exact for RESULT, REGISTERED, PUBLISHED, SUBSCRIBED and every ERROR. False of the code for UNSUBSCRIBED/UNREGISTERED whose subscription/registration is no longer granted: refused although the request is outstanding; exactly when a reply is accepted, and exactly when a refused message leaves a trace, is proved.'),
 "C47": ("proved", ['Wamp.WAMPSession.C47_answered_at_most_once'], 'Requests are counted by send_message calls.'),
 "C48": ("proved", ['Wamp.WAMPSession.C48_event_iff_granted', 'Wamp.WAMPSession.C48_invocation_iff_granted'], ''),
 "C49": ("proved", ['Wamp.WAMPSession.C49_yield_iff_unanswered', 'Wamp.WAMPSession.C49_yield_at_most_once', 'Wamp.WAMPSession.C49_error_only_for_invocations'], ''),
 "C50": ("partial", ['Wamp.WAMPSession.C50_fails_result', 'Wamp.WAMPSession.C50_fails_witness', 'Wamp.WAMPSession.C50_fails_yield', 'Wamp.WAMPSession.C50_progressive_partial'], 'False of the code: the first RESULT ends the call and the first YIELD ends the invocation, progressive or not.'),
 "C51": ("partial", ['Wamp.WAMPSession.C51_independent', 'Wamp.WAMPSession.C51_withdrawal_partial', 'Wamp.WAMPSession.C51_fails_unsubscribed'], 'False of the code for UNSUBSCRIBED/UNREGISTERED, whose acceptance also depends on the grant; proved for all other replies.'),
 "C52": ("partial", ['Wamp.WAMPSession.C52_fails_serializer', 'Wamp.WAMPSession.C52_failed_send_partial', 'Wamp.WAMPSession.C52_counts_as_sent'], 'False of the code when the serializer refuses the message: the request is recorded first. Exactly: a message the serializer refuses counts as sent.'),
 "C53": ("proved", ['Wamp.Acceptor.C53_welcome_justified', 'Wamp.Acceptor.C53_welcome_fields'], ''),
 "C54": ("proved", ['Wamp.Acceptor.C54_wampcra_welcome', 'Wamp.Acceptor.C54_wampcra_accepted'], 'For every MAC function.'),
 "C55": ("partial", ['Wamp.Acceptor.C55_replay', 'Wamp.Acceptor.C55_cryptosign_welcome_false', 'Wamp.Acceptor.C55_cryptosign_welcome_partial', 'Wamp.Acceptor.C55_exact'], 'False of the code: the signed message is never compared with the challenge, so any old signature can be replayed. C55_exact: a valid signature over any message under the approved key is required and suffices.'),
 "C56": ("proved", ['Wamp.Acceptor.C56_at_most_one_welcome', 'Wamp.Acceptor.C56_closed_after_welcome'], ''),
 "C57": ("partial", ['Wamp.Acceptor.C57_abort_terminal_partial', 'Wamp.Acceptor.C57_rejected_hello_retry', 'Wamp.Acceptor.C57_rejected_ticket_retry', 'Wamp.Acceptor.C57_aborted_exact', 'Wamp.Acceptor.C57_rejection_forgotten'], 'False of the code for the ABORT sent when the authenticator rejects a request: the acceptor stays open. Proved for a received ABORT and for the ABORT after a bad signature, which are exactly the cases where is_aborted() is True; any other ABORT leaves no trace at all.'),
 "C58": ("proved", ['Wamp.Acceptor.C58_session_details', 'Wamp.Acceptor.C58_not_yet', 'Wamp.Acceptor.C58_emitted'], ''),
 "C59": ("proved", ['Wamp.Acceptor.C59_authenticate_needs_challenge', 'Wamp.Acceptor.C59_no_second_hello'], ''),
 "C60": ("partial", ['Wamp.Acceptor.C60_receive_reply', 'Wamp.Acceptor.C60_receive_state', 'Wamp.Acceptor.C60_fails_abort', 'Wamp.Acceptor.C60_fails_no_authextra', 'Wamp.Acceptor.C60_always_answers_partial', 'Wamp.Acceptor.C60_exact'], 'False of the code: ABORT, or a cryptosign HELLO without authextra, raises AttributeError. C60_exact: exactly which messages raise something else than ValueError, after every history. Proved for HELLO and AUTHENTICATE otherwise.'),
 "C64": ("proved", ['Wamp.C64_verify_iff', 'Wamp.C64_verify_total', 'Wamp.C64_sign_verifies', 'Wamp.C64_no_other'], 'base64 is modelled concretely; the MAC is a parameter.'),
 "C65": ("partial", ['Wamp.C65_client_salted', 'Wamp.C65_client_refuses', 'Wamp.C65_client_plain', 'Wamp.C65_salt_unreadable', 'Wamp.Acceptor.C65_acceptor_never_announces_salt', 'Wamp.Acceptor.C65_salted_login_fails'], 'The client half is proved. The acceptor half is false of the code: the salt is never announced, and reading it recurses for ever.'),
 "C66": ("proved", ['Wamp.C66_sign_verifies', 'Wamp.C66_own_challenges', 'Wamp.C66_verify_iff', 'Wamp.C66_bad_challenge', 'Wamp.C66_keypair'], 'hex is modelled concretely; the signature scheme is a parameter with its signing law as hypothesis.'),
 "C61": ("proved", ['Wamp.Joiner.C61_welcome', 'Wamp.Joiner.C61_challenge', 'Wamp.Joiner.C61_other', 'Wamp.Joiner.C61_details', 'Wamp.Joiner.C61_no_details', 'Wamp.Joiner.C61_hello_contents', 'Wamp.Joiner.C61_receive_bytes'], ''),
 "C62": ("proved", ['Wamp.Joiner.C62_abort', 'Wamp.Joiner.C62_abort_bytes'], 'For the ABORT as received; that marshal drops args/kwargs before is C02.'),
 "C63": ("proved", ['Wamp.C63_no_authenticator', 'Wamp.C63_anonymous', 'Wamp.C63_ticket', 'Wamp.C63_wampcra', 'Wamp.C63_cryptosign', 'Wamp.C63_details_compare_equal'], 'That the codec carries each message of the exchange is a hypothesis; for cryptosign the signing law.'),
 "C67": ("proved", ['Wamp.Spec.Net.C67_who_sends_what', 'Wamp.Spec.Net.C67_client_never_rejects', 'Wamp.Spec.Net.C67_unsubscribe_accepted', 'Wamp.Spec.Net.C67_agreement', 'Wamp.Spec.Net.C67_needs_fresh_request_ids'], 'Invariant over all schedules of the composed system. The last theorem shows that the hypothesis on request ids is needed.'),
 "C68": ("partial", ['Wamp.Spec.Net.C68_client_never_rejects_partial','Wamp.Spec.Net.C68_dealer_never_rejects_partial','Wamp.Spec.Net.C68_agreement_partial','Wamp.Spec.Net.C68_fails_for_unsolicited_error','Wamp.Spec.Net.C68_fails_for_rogue_error','Wamp.Spec.Net.C68_needs_distinct_sessions','Wamp.Spec.Net.C68_needs_fresh_request_ids','Wamp.Spec.Net.C68_needs_plain_calls'], 'False as stated: WAMPSession lets an application send an invocation ERROR for an invocation it never received; the dealer rejects it, or accepts it for an invocation another client is working on and then rejects that client\'s YIELD (witnesses). Proved in full under the additional hypothesis that clients send invocation ERRORs only for invocations received and not answered.'),
 "C69": ("partial", ['Wamp.Legacy.C69_strings','Wamp.Legacy.C69_details','Wamp.Legacy.C69_session_id_partial','Wamp.Legacy.C69_fails_zero'], 'Proved for strings and dicts. Session ids: false of the code for 0, which is accepted; exact range 0..2**53 proved.'),
 "C70": ("proved", ['Wamp.Legacy.C70_shows_everything','Wamp.Legacy.C70_bare_iff', 'Wamp.Legacy.C70_error_shows_everything', 'Wamp.Legacy.C70_error_bare_iff'], ''),
 "C71": ("proved", ['Wamp.Spec.Net.C71_result','Wamp.Spec.Net.C71_error','Wamp.Spec.Net.C71_invocation','Wamp.Spec.Net.C71_one_answer','Wamp.Spec.Net.C71_needs_errors_answer'], 'For clients that use fresh request ids, make no progressive calls and send invocation ERRORs only for invocations they have; C71_needs_errors_answer shows the last is needed.'),
 "C72": ("partial", ['Wamp.Spec.Net.C72_where_calls_are_partial','Wamp.Spec.Net.C72_quiet_partial','Wamp.Spec.Net.C72_fails_when_callee_leaves'], 'False as stated: a callee that leaves takes its pending calls with it and the caller waits for ever. Proved for runs in which nobody leaves and every message sent can be serialized.'),
 "C73": ("partial", ['Wamp.Dealer.C73_invocation_payload_partial','Wamp.Dealer.C73_invocation_denies_binary','Wamp.Dealer.C73_result_drops_payload','Wamp.Dealer.C73_fails'], 'False of the code: the RESULT never carries the payload of the YIELD, and the INVOCATION carries the payload of the CALL but never says it is binary. Payload and serializer id of the INVOCATION are proved to be those of the CALL.'),
 "C74": ("proved", ['Wamp.Spec.Net.C74_exactly_once_in_order','Wamp.Spec.Net.C74_ids_increase','Wamp.Spec.Net.C74_publisher_order','Wamp.Spec.Net.C74_accepted'], ''),
 "C75": ("partial", ['Wamp.Spec.Net.C75_requests_partial','Wamp.Spec.Net.C75_unsubscribe_partial','Wamp.Spec.Net.C75_unregister_partial','Wamp.Spec.Net.C75_nothing_waits_partial','Wamp.Spec.Net.C75_fails_unsubscribe_not_held','Wamp.Spec.Net.C75_fails_unregister_not_held'], 'SUBSCRIBE, PUBLISH and REGISTER if what clients send can be serialized (C119 says exactly what happens otherwise); UNSUBSCRIBE and UNREGISTER when clients withdraw only what they were granted and have not yet withdrawn. Otherwise false of the code: the router raises and sends no answer.'),
 "C76": ("proved", ['Wamp.WAMPSession.C76_send','Wamp.WAMPSession.C76_goodbye_abort','Wamp.WAMPSession.C76_receive_returns','Wamp.WAMPSession.C76_error_answers'], ''),
 "C77": ("proved", ['Wamp.WAMPSession.C77_situation_decides','Wamp.WAMPSession.C77_situation_shows'], 'The second direction for serializers that do not fail.'),
 "C78": ("proved", ['Wamp.RawSocket.C78_round_trip','Wamp.RawSocket.C78_one_reading','Wamp.RawSocket.C78_nothing_lost','Wamp.RawSocket.C78_chunks','Wamp.RawSocket.C78_prefix'], ''),
 "C79": ("proved", ['Wamp.Broker.C79_broker_is_table'], 'up to 2**53 calls, after which ids wrap'),
 "C80": ("proved", ['Wamp.Dealer.C80_dealer_is_table'], 'up to 2**53 calls, after which ids wrap'),
 "C81": ("proved", ['Wamp.Spec.Net.C81_bytes_refine_messages', 'Wamp.Spec.Net.C81_router_reads', 'Wamp.Spec.Net.C81_client_never_rejects', 'Wamp.Spec.Net.C81_agreement', 'Wamp.Spec.Net.C81_event', 'Wamp.Spec.Net.C81_invocation', 'Wamp.Spec.Net.C81_result', 'Wamp.Spec.Net.json_dataSet'], 'serializers abstract: they must restore the values messages are made of'),
 "C82": ("proved", ['Wamp.Spec.Net.C82_comes_to_rest', 'Wamp.Spec.Net.C82_progress', 'Wamp.Spec.Net.C82_can_finish', 'Wamp.Spec.Net.C82_calls_finish','Wamp.Spec.Net.C82_calls_finish_or_lost', 'Wamp.Spec.Net.C82_requests_finish'], 'The termination part needs no hypothesis. The last two use C72 and C75 and so their conditions on clients.'),
 "C83": ("partial", ['Wamp.Sharing.C83_options_partial', 'Wamp.Sharing.C83_messages_by_value_partial', 'Wamp.Sharing.C83_own_dict', 'Wamp.Sharing.C83_exact', 'Wamp.Sharing.C83_false', 'Wamp.Sharing.C83_false_serializers'], 'False of the code: reading the options of a message with a payload serializer writes into the dict object it was given, so another message built around the same dict announces that serializer too. Proved when the messages around one dict object have the same payload serializer and no cryptosign client is built around it, and for messages built without options; and, without conditions, which entries of the answer change and to what (C83_exact).'),
 "C84": ("partial", ['Wamp.Sharing.C84_announced_partial', 'Wamp.Sharing.C84_own_key', 'Wamp.Sharing.C84_false'], 'False of the code: the constructor writes the key into the dict object it was given and keeps an entry that is already there, so two clients built around one dict announce the key of the first (and the second is refused, C85). Proved: the entry the dict had at construction, else the own key, is announced for ever.'),
 "C85": ("proved", ['Wamp.C85_anonymous', 'Wamp.C85_ticket', 'Wamp.C85_wampcra_refused', 'Wamp.C85_wampcra_wrong_secret', 'Wamp.C85_cryptosign_refused', 'Wamp.C85_cryptosign_wrong_key'], ''),
 "C86": ("partial", ['Wamp.Broker.C86_broker', 'Wamp.Dealer.C86_dealer_partial', 'Wamp.Dealer.C86_invocation_partial', 'Wamp.Dealer.C86_nobody_left_partial', 'Wamp.Dealer.C86_fails_when_caller_leaves', 'Wamp.Dealer.C86_fails_to_stranger', 'Wamp.Dealer.C86_fails_for_stranger', 'Wamp.Dealer.C86_exact'], 'Proved in full for the broker. False of the dealer: answers to calls are addressed to the caller although it has left, hence to a stranger if its session id is given out again, and sessions never added can call (witnesses). Proved: these are the only exceptions.'),
 "C87": ("partial", ['Wamp.Broker.C87_broker', 'Wamp.Broker.C87_broker_empty', 'Wamp.Dealer.C87_dealer_partial', 'Wamp.Dealer.C87_dealer_empty_partial', 'Wamp.Dealer.C87_fails_for_pending_calls', 'Wamp.Dealer.C87_fails_after_error', 'Wamp.Dealer.C87_exact'], 'Proved in full for the broker and for sessions and registrations of the dealer. False of the calls kept by the dealer: a call stays although caller and callee have left, and an ERROR leaves the request id of its call behind for ever (witnesses). Proved: the pending calls kept are exactly those without a final answer, and with only final YIELDs nothing is left.'),
 "C88": ("proved", ['Wamp.Spec.C88_restores', 'Wamp.Spec.C88_messages', 'Wamp.Spec.C88_payloads'], 'The codecs are modelled byte by byte (character by character for JSON); floats but for NaNs with unusual bits (their bits are lost in JSON and CBOR).'),
 "C89": ("proved", ['Wamp.Spec.Net.C89_formats_refine_messages', 'Wamp.Spec.Net.C89_router_reads', 'Wamp.Spec.Net.C89_client_never_rejects', 'Wamp.Spec.Net.C89_agreement', 'Wamp.Spec.Net.C89_contents'], 'C81 with the three modelled codecs; values without bytes and unusual NaNs, integers of 64 bits, sizes below 2^32.'),
 "C90": ("partial", ['Wamp.Spec.C90_writes_truly_partial', 'Wamp.Spec.C90_writes_truly_false', 'Wamp.Spec.C90_msgpack_unreadable', 'Wamp.Spec.C90_json_loses_entry', 'Wamp.Spec.C90_json', 'Wamp.Spec.C90_msgpack', 'Wamp.Spec.C90_cbor', 'Wamp.Spec.C90_exact'], 'False if a dict has a key that is not a string: JSON turns it into a string (two entries may become one), MessagePack writes what its reader refuses. Proved for dicts with string keys, with the exact set of values that are refused; without NaNs of unusual bits for JSON and CBOR. C90_json and C90_msgpack say what arrives of any value, C90_exact which values arrive unchanged; C90_cbor has keys that are strings, bytes or integers (others are not modelled).'),
 "C91": ("partial", ['Wamp.Spec.C91_one_message_partial', 'Wamp.Spec.C91_one_message_false', 'Wamp.Spec.C91_json', 'Wamp.Spec.C91_msgpack', 'Wamp.Spec.C91_cbor'], 'False for CBOR: whatever follows the first message is ignored. Proved for JSON (white space may follow) and MessagePack.'),
 "C92": ("proved", ['Wamp.Spec.C92_truncated'], ''),
 "C93": ("proved", ['Wamp.C93_entries_true', 'Wamp.C93_some_entry', 'Wamp.C93_wrong_length'], 'Entries are data; C98 is about their texts.'),
 "C94": ("proved", ['Wamp.C94_challenge_contents', 'Wamp.C94_challenges_differ', 'Wamp.Acceptor.C94_challenge_sent', 'Wamp.Acceptor.C94_no_replay'], 'json.dumps is that of Model/Json.lean; the MAC is a parameter, so the last statement says which two texts would have to collide.'),
 "C95": ("proved", ['Wamp.C95_no_authenticator', 'Wamp.C95_anonymous', 'Wamp.C95_ticket', 'Wamp.C95_wampcra', 'Wamp.C95_cryptosign'], 'C63 with the three modelled codecs in place of an arbitrary one.'),
 "C96": ("proved", ['Wamp.C96_hex_text', 'Wamp.C96_hex_read', 'Wamp.C96_base64_text', 'Wamp.C96_wampcra_signature', 'Wamp.C96_derived_key', 'Wamp.C96_cryptosign_texts', 'Wamp.C96_cryptosign_signature'], 'Base16 and Base64 are specified over bit strings in Spec/Encoding.lean.'),
 "C97": ("partial", ['Wamp.Acceptor.C97_wampcra_text_partial', 'Wamp.Acceptor.C97_cryptosign_text_partial', 'Wamp.Acceptor.C97_exact', 'Wamp.Acceptor.C97_one_text_false', 'Wamp.C97_foreign_character', 'Wamp.C97_appended_text'], 'False of the code: base64.b64decode skips characters outside the alphabet, ignores the last bits and what follows the padding; hex is read in either case. Proved: an accepted text spells the right bytes; C97_exact says which texts are accepted for WAMP-CRA.'),
 "C98": ("proved", ['Wamp.C98_to_message', 'Wamp.C98_parse_own', 'Wamp.C98_parse_foreign', 'Wamp.C98_every_class'], 'repr of foreign objects is a placeholder; it occurs only where an odd role or a foreign type code is quoted.'),
 "C99": ("partial", ['Wamp.Dealer.C99_parts_partial', 'Wamp.Dealer.C99_answer_partial', 'Wamp.Dealer.C99_last_part_false', 'Wamp.Dealer.C99_second_answer_lost'], 'False of the code: the last part gets an invocation id of its own, so the callee sees two invocations and the second answer raises KeyError. Proved for the parts marked progress.'),
 "C100": ("proved", ['Wamp.Spec.C100_number', 'Wamp.Spec.C100_one_double', 'Wamp.Spec.C100_argument', 'Wamp.Spec.C100_restored', 'Wamp.Spec.C100_relayed', 'Wamp.Spec.C100_msgpack_single', 'Wamp.Spec.C100_cbor_single', 'Wamp.Spec.C100_cbor_half'], 'Numbers and rounding are specified over the rationals in Spec/Numbers.lean. float() and repr() of CPython are modelled, not parameters.'),
 "C101": ("proved", ['Wamp.C101_anonymous', 'Wamp.C101_ticket', 'Wamp.C101_wampcra_refused', 'Wamp.C101_wampcra_wrong_secret', 'Wamp.C101_cryptosign_refused', 'Wamp.C101_cryptosign_wrong_key'], 'C85 with the three modelled codecs.'),
 "C102": ("proved", ['Wamp.Spec.C102_conversation'], 'The two programs at the ends of the stream are written down in Spec/Connection.lean from the functions of the package. Payloads of exactly 2**24 bytes are excluded (C14).'),
 "C103": ("proved", ['Wamp.Spec.C103_read', 'Wamp.Spec.C103_message', 'Wamp.Spec.C103_same', 'Wamp.Spec.C103_one_value', 'Wamp.Spec.C103_payload', 'Wamp.Spec.C103_encodings'], 'The ways to write a value are inductive relations in Spec/Spellings.lean, the encodings of a text functions in Spec/Encodings.lean, taken from the standards and independent of the models of the codecs. Tags other than big integers, two-byte simple values and MessagePack extension types stand for no Value and are not part of them.'),
 "C104": ("proved", ['Wamp.Spec.C104_written', 'Wamp.Spec.C104_message', 'Wamp.Spec.C104_any_reader', 'Wamp.Spec.C104_payload'], 'NaN and infinities in JSON are written as Python does, which RFC 8259 does not provide for; the relation includes them.'),
 "C105": ("partial", ['Wamp.Acceptor.C105_answer_partial', 'Wamp.Acceptor.C105_no_replay', 'Wamp.C105_equal_macs', 'Wamp.C105_same_key', 'Wamp.C105_short_secrets', 'Wamp.C105_wrong_secret', 'Wamp.C105_other_secret', 'Wamp.C105_other_secret_case'], 'HMAC and PBKDF2 are modelled over an arbitrary hash function. False of the code: a secret followed by NUL characters, or the hash of a secret of more than 64 bytes, is taken for the secret. Proved up to the keys HMAC takes for one; for secrets of at most 64 bytes without NUL these are the secret alone.'),
 "C106": ("proved", ['Wamp.Spec.C106_shortest', 'Wamp.Spec.C106_argument'], 'Digits are those of some integer times a power of ten (HasDigits); which numbers are read as a double is ReadAs of Spec/Numbers.lean, the nearest double with ties to even.'),
 "C107": ("partial", ['Wamp.C107_wampcra_partial', 'Wamp.C107_cryptosign_partial', 'Wamp.C107_ticket_partial', 'Wamp.Joiner.C107_next_challenge', 'Wamp.Joiner.C107_own_method_false'], 'The authenticators do not look at the authmethod of a CHALLENGE (auth/*.py), so a client that offered a ticket gives it to a server that names another method (C107_own_method_false). All else is proved, for any authmethod.'),
  "C108": ("proved", ["Wamp.Spec.C108_broker", "Wamp.Spec.C108_dealer"],
    'two histories of any length compared by a simulation; the texts of ValueErrors name sessions and are not compared'),
  "C109": ("proved", ["Wamp.Spec.C109_broker", "Wamp.Spec.C109_dealer", "Wamp.Spec.C109_broker_alike", "Wamp.Spec.C109_dealer_alike",
    "Wamp.Spec.C109_broker_past", "Wamp.Spec.C109_dealer_past"], 'what goes into which message is fillPub/fillRpc (Spec/Contents.lean); '
    'what is lost on the way (binary payloads of publications, answers and errors) is C73'),
  "C110": ("proved", ["Wamp.Spec.C110_broker_inbox", "Wamp.Spec.C110_dealer_inbox", "Wamp.Spec.C110_publish", "Wamp.Spec.C110_call"],
    'the inbox theorems exchange the other sessions in a whole history; the other two exchange a single publisher or caller'),
  "C111": ("proved", ["Wamp.Spec.C111_server"], 'two servers side by side; the response of the authenticator is the same but for the secret (blind)'),
  "C112": ("proved", ["Wamp.Spec.C112_wampcra", "Wamp.Spec.C112_ticket", "Wamp.Spec.C112_cryptosign", "Wamp.Spec.C112_pbkdf2"],
    'for WAMP-CRA with a salt: if PBKDF2 accepts or refuses its arguments whatever the password, which C112_pbkdf2 proves of PBKDF2 over every hash function'),
  "C113": ("proved", ["Wamp.Acceptor.C113_no_trace", "Wamp.Acceptor.C113_trace"], ''),
  "C114": ("proved", ["Wamp.WAMPSession.C114_send", "Wamp.WAMPSession.C114_receive"], ''),
 "C115": ("proved", ['Wamp.Spec.Net.C115_somewhere_or_lost','Wamp.Spec.Net.C115_for_ever','Wamp.Spec.Net.C115_quiet'], 'Together with C72: what the code does instead of keeping every call.'),
 "C116": ("proved", ['Wamp.Acceptor.C116_server'], 'A refinement: Spec/Server.lean is the description, without any of the fields of the acceptor.'),
 "C117": ("partial", ['Wamp.Spec.Tenants.C117_broker', 'Wamp.Spec.Tenants.C117_dealer_partial', 'Wamp.Spec.Tenants.C117_dealer_false'], 'True of the broker. At the dealer it is false without a proviso (witness C117_dealer_false): the sender of an ERROR is not checked (C34), so a stranger can end a call. With ERRORs coming from the side the INVOCATION went to, it holds.'),
 "C118": ("partial", ['Wamp.Spec.AsNew.C118_broker', 'Wamp.Spec.AsNew.C118_dealer_partial', 'Wamp.Spec.AsNew.C118_dealer_exact', 'Wamp.Spec.AsNew.C118_dealer_false'], 'True of the broker. Of the dealer it is false (witnesses C118_dealer_false): calls in progress outlive both sides, and so do the request ids of calls answered with ERROR. C118_dealer_partial proves it when no call is in progress and none was answered with ERROR; C118_dealer_exact says when exactly, in terms of the reference table of C80.'),
 "C119": ("proved", ['Wamp.Spec.Net.C119_underway_or_lost', 'Wamp.Spec.Net.C119_for_ever'], 'The counterpart of C115 for the other requests, and the exact form of C75; without any assumption on the clients.'),
 "C120": ("proved", ['Wamp.Spec.Stack.C120_stack', 'Wamp.Spec.Stack.C120_client_reads', 'Wamp.Spec.Stack.C120_router_reads', 'Wamp.Spec.Stack.C120_agreement'], 'A forward simulation of the network of sessions on bytes (C81). The program that connects the parts (Spec/Stack.lean) is not in the repository; it is what the API suggests. Data too long for a frame (2^24 bytes) is excluded by hypothesis: to_bytes raises for it (C13).'),
 "C121": ("proved", ['Wamp.Spec.Stack.C121_broker', 'Wamp.Spec.Stack.C121_dealer', 'Wamp.Spec.Stack.C121_identity', 'Wamp.Spec.Stack.C121_refused', 'Wamp.Spec.Stack.C121_wampcra'], 'Invariant over all schedules of the stack of C120 in which arbitrary bytes can be injected. The program that connects the parts (Spec/Stack.lean) is not part of the package; it is the one C120 uses.'),
 "C122": ("proved", ['Wamp.Spec.Stack.C122_bystanders', 'Wamp.Spec.Stack.C122_refused'], 'Two runs of the stack of C121, one without the connections nobody is welcomed on. The ids of the others are drawn by the schedule, so that drawing more of them is not a difference.'),
 "C123": ("proved", ['Wamp.Spec.Stack.C123_login_ends', 'Wamp.Spec.Stack.C123_stays_ended', 'Wamp.Spec.Stack.C123_no_deadlock'], 'Schedules in which nobody writes into the connection of this client and the connection is not dropped. The three exchanges need not be contiguous (List.Sublist). An exchange that carries at least 2^24 + 4 bytes carries everything a frame can hold.'),
 "C124": ("proved", ['Wamp.Spec.Stack.C124_gets_in', 'Wamp.Spec.Stack.C124_wampcra', 'Wamp.Spec.Stack.C124_ticket', 'Wamp.Spec.Stack.C124_cryptosign', 'Wamp.Spec.Stack.C124_anonymous'], 'C124_gets_in reduces the whole system to what joiner and acceptor do when left to themselves (C63); the others give the methods. Assumed: nobody writes into or drops the connection of this client, the id is fresh, what is sent can be encoded and is shorter than 2^24 bytes; for cryptosign that verify accepts what sign makes.'),
 "C125": ("proved", ['Wamp.Spec.Stack.C125_network', 'Wamp.Spec.Stack.C125_event', 'Wamp.Spec.Stack.C125_invocation', 'Wamp.Spec.Stack.C125_result', 'Wamp.Spec.Stack.C125_error', 'Wamp.Spec.Stack.C125_stream'], 'Composes C122 (strangers make no difference), C120 (stack to network on bytes), C81 (bytes to messages), C74 and C71. Assumed of members: they use the package, one serializer per session id, messages made of values all three serializers restore, nothing longer than a frame; for C125_stream fresh request ids, for C125_result and C125_error what C71 assumes (GoodClientsB).'),
 "C126": ("proved", ['Wamp.Spec.Stack.C126_secrecy', 'Wamp.Spec.Stack.C126_same_view'], 'With an authenticator. C122 is the other direction (integrity). The answers of the authenticator are inputs here: if they depend on other connections, so does what the stranger sees.'),
 "C127": ("proved", ['Wamp.Spec.Stack.C127_comes_to_rest', 'Wamp.Spec.Stack.C127_messages', 'Wamp.Spec.Stack.C127_progress', 'Wamp.Spec.Stack.C127_calls_answered', 'Wamp.Spec.Stack.C127_requests_answered', 'Wamp.Spec.Stack.C127_members'], 'For applications that use free request ids, call without progress, end only subscriptions and registrations they have, and stay connected; without these, C72, C75 and C115 say what is lost. The serializers are those of the package. What is sent can be carried by all three formats and fits into frames. Up to 2^25 requests and deliveries before, so that no id exceeds 2^53.'),
 "C128": ("proved", ['Wamp.Spec.Present.C128_broker', 'Wamp.Spec.Present.C128_broker_exact', 'Wamp.Spec.Present.C128_publish', 'Wamp.Spec.Present.C128_refused', 'Wamp.Spec.Present.C128_dealer', 'Wamp.Spec.Present.C128_dealer_exact', 'Wamp.Spec.Present.C128_refused_dealer', 'Wamp.Spec.Present.C128_answered'], 'As long as ids last (2^53 calls). A request id is in use from a CALL until the final RESULT; one whose call was answered with ERROR stays in use (C45), so that such a call does leave a trace. Outcomes are compared up to the texts of exceptions.'),
 "C129": ("proved", ['Wamp.Spec.Stack.C129_up', 'Wamp.Spec.Stack.C129_down', 'Wamp.Spec.Stack.C129_at_rest'], 'Messages must be carried by all serializers and fit into frames (Tame). What the application is handed is exact for clients that use free request ids, make no progressive calls and answer what they are asked (C67, C68); up to the router nothing is asked of clients.'),
 "C130": ("proved", ['Wamp.Spec.Stack.C130_calls', 'Wamp.Spec.Stack.C130_requests', 'Wamp.Spec.Stack.C130_calls_for_ever', 'Wamp.Spec.Stack.C130_requests_for_ever'], 'For calls, members use free request ids, make no progressive calls and answer what they are asked; for the other requests nothing is asked of them. Messages must be carried by all serializers and fit into frames (Tame).'),
 "C131": ("proved", ['Wamp.Spec.Stack.C131_order', 'Wamp.Spec.Stack.C131_sessions', 'Wamp.Spec.Stack.C131_same', 'Wamp.Spec.Stack.C131_catch_up'], 'Nothing is assumed of clients or strangers. That a connection ends counts as done at the router and at that client.'),
 "C132": ("proved", ['Wamp.Spec.Unrelated.C132_broker', 'Wamp.Spec.Unrelated.C132_dealer', 'Wamp.Spec.Unrelated.C132_same_topic', 'Wamp.Spec.Unrelated.C132_same_procedure'], 'Histories of up to 2^53 calls, within which the id generator does not wrap.'),
 "C133": ("proved", ['Wamp.Spec.Neighbours.C133_neighbours', 'Wamp.Spec.Neighbours.C133_errors_needed'], 'Schedules of up to 2^53 actions, within which the id generator does not wrap; clients whose serializer accepts every message (the network on objects, which C89 relates to the one on bytes).'),
 "C134": ("proved", ['Wamp.Spec.Newcomers.C134_newcomers', 'Wamp.Spec.Newcomers.C134_ids_needed'], 'Schedules of up to 2^53 actions in all, within which the id generator does not wrap; clients whose serializer accepts every message (the network on objects, which C89 relates to the one on bytes).'),
 "C135": ("proved", ['Wamp.Spec.Visitors.C135_left', 'Wamp.Spec.Visitors.C135_published', 'Wamp.Spec.Visitors.C135_granted'], 'Histories of up to 2^53 calls, within which the id generator does not wrap.'),
 "C136": ("partial", ['Wamp.Spec.Undone.C136_left_broker', 'Wamp.Spec.Undone.C136_unsubscribed', 'Wamp.Spec.Undone.C136_left_dealer', 'Wamp.Spec.Undone.C136_unregistered', 'Wamp.Spec.Undone.C136_progress', 'Wamp.Spec.Present.C128_answered', 'Wamp.Spec.Undone.C136_failed_partial', 'Wamp.Spec.Undone.C136_failed_false'], 'False of the code for a CALL answered with an ERROR: the dealer keeps which invocation the request id of the caller stands for, and takes a later call in parts with that request id for a part of it. C136_failed_partial: nothing else is kept. Everything else is proved, for histories of up to 2^53 calls; a call answered with a RESULT if its request id was not in use before.'),
 "C137": ("proved", ['Wamp.Spec.Stack.C137_room', 'Wamp.Spec.Stack.C137_broker_adds', 'Wamp.Spec.Stack.C137_dealer_adds', 'Wamp.Spec.Stack.C137_nothing_too_long', 'Wamp.Spec.Stack.C137_stack', 'Wamp.Spec.Stack.C137_tame', 'Wamp.Spec.Stack.C137_sender_cannot_tell'], 'Structural induction for each serializer, and an invariant over all schedules of the network on bytes. Discharges the hypothesis NothingTooLong of C120 and of the claims about the stack (C122, C125 to C130 and others) from a condition on what the applications send. Schedules of up to 2^53 actions.'),
 "C138": ("proved", ['Wamp.Spec.Flood.C138_broker', 'Wamp.Spec.Flood.C138_dealer', 'Wamp.Spec.Flood.C138_no_flood', 'Wamp.Spec.Flood.C138_own_count_twice'], 'Invariant over all schedules of the network on bytes (C81), with no hypotheses on clients or serializers. C138_own_count_twice: a client that publishes to its own subscription and asks for an acknowledgement gets two messages for one.'),
 "C139": ("proved", ['Wamp.Spec.Asked.C139_broker', 'Wamp.Spec.Asked.C139_dealer', 'Wamp.Spec.Asked.C139_owed', 'Wamp.Spec.Asked.C139_silent'], 'Invariant over all schedules of the network on bytes (C81); the hypotheses are about the one client and the 2^53 ids only. About session ids: who is given the id of somebody who has left may still be sent the answer to their CALL (C87).'),
 "C140": ("proved", ['Wamp.Spec.Tally.C140_no_more_answers', 'Wamp.Spec.Tally.C140_once', 'Wamp.Spec.Tally.C140_handed', 'Wamp.Spec.Tally.C140_progress_not_counted'], 'Invariant over all schedules of the network on messages (C140_handed: with bytes and serializers that restore the values, for what applications are handed): answers given, calls pending and requests on their way are together no more than requests made. C140_progress_not_counted: with progressive RESULTs the claim would be false.'),
 "C141": ("proved", ['Wamp.Spec.Tally.C141_last_word', 'Wamp.Spec.Tally.C141_handed'], 'Over all schedules of the network on messages, with the invariant of C140: what replies to a call is made from a pending call, and none is left once it has been settled. C141_handed: the same on bytes.'),
 "C142": ("proved", ['Wamp.Spec.Overheard.C142_nobody_overhears', 'Wamp.Spec.Overheard.C142_topics_are_private', 'Wamp.Spec.Overheard.C142_procedures_are_private', 'Wamp.Spec.Overheard.C142_handed', 'Wamp.Spec.Overheard.C142_errors_from_anybody'], 'Invariant over all schedules of the network on messages, no hypothesis on the clients. C142_handed: what applications are handed in the network on bytes, with serializers that restore the values. For an ERROR the sender is not tied to the procedure: the dealer takes an ERROR for a pending call from anybody (C142_errors_from_anybody, a witness).'),
}
here = os.path.dirname(os.path.abspath(__file__))
claims = [{"property": k, "status": s, "theorems": t, "note": n} for k, (s, t, n) in sorted(T.items())]
json.dump({"claims": claims}, open(os.path.join(here, "../MANIFEST.json"), "w"), indent=1)
# axioms report
open("/tmp/axioms.lean", "w").write("import Verif\n" + "\n".join(f"#print axioms {t}" for _, (_, ts, _) in sorted(T.items()) for t in ts) + "\n")
