# Index

Generated by `tools/gen_index.py`.

## Theorems

| property | status | theorem | where |
|---|---|---|---|
| C01 Wire round trip | proved | `Wamp.C01_received` | lean/Verif/Props/Wire.lean:17 |
|  |  | `Wamp.C01_wire_round_trip` | lean/Verif/Props/Wire.lean:104 |
| C02 ABORT diagnostics survive the wire | partial | `Wamp.C02_abort_diagnostics_false` | lean/Verif/Props/Wire.lean:128 |
|  |  | `Wamp.C02_abort_diagnostics_partial` | lean/Verif/Props/Wire.lean:137 |
| C03 Binary payload survives the wire | partial | `Wamp.C03_binary_payload_false` | lean/Verif/Props/Wire.lean:149 |
|  |  | `Wamp.C03_binary_payload_partial` | lean/Verif/Props/Wire.lean:162 |
| C04 Parse soundness | proved | `Wamp.C04_parse_soundness` | lean/Verif/Props/Wire.lean:223 |
| C05 Parse completeness | proved | `Wamp.C05_parse_completeness` | lean/Verif/Props/Wire.lean:347 |
| C06 Parse failure is a clean ValueError/TypeError | partial | `Wamp.C06_clean_failure_false` | lean/Verif/Props/Wire.lean:380 |
|  |  | `Wamp.C06_clean_failure_partial` | lean/Verif/Props/Wire.lean:389 |
| C07 Relay transparency | proved | `Wamp.C07_relay_transparency` | lean/Verif/Props/Wire.lean:414 |
| C08 Dispatch by type code | proved | `Wamp.C08_dispatch` | lean/Verif/Props/Wire.lean:460 |
|  |  | `Wamp.C08_unknown_rejected` | lean/Verif/Props/Wire.lean:467 |
|  |  | `Wamp.C08_not_a_list` | lean/Verif/Props/Wire.lean:484 |
|  |  | `Wamp.C08_codes` | lean/Verif/Props/Wire.lean:488 |
| C09 Complete error report | proved | `Wamp.C09_complete_error_report` | lean/Verif/Props/Wire.lean:499 |
| C10 Serializer round trip | proved | `Wamp.C10_serializer_round_trip` | lean/Verif/Props/Payload.lean:25 |
|  |  | `Wamp.C10_serializer_received` | lean/Verif/Props/Payload.lean:31 |
|  |  | `Wamp.C10_deserialize_valid` | lean/Verif/Props/Payload.lean:37 |
|  |  | `Wamp.C10_deserialize_errors` | lean/Verif/Props/Payload.lean:44 |
|  |  | `Wamp.WAMPSession.C46_receive_bytes` | lean/Verif/Props/Session.lean:158 |
|  |  | `Wamp.Joiner.C61_receive_bytes` | lean/Verif/Props/Joiner.lean:106 |
|  |  | `Wamp.Acceptor.C60_receive_reply` | lean/Verif/Props/Acceptor.lean:489 |
|  |  | `Wamp.Acceptor.C60_receive_state` | lean/Verif/Props/Acceptor.lean:513 |
| C100 Numbers arrive as they were written | proved | `Wamp.Spec.C100_number` | lean/Verif/Props/Numbers.lean:12 |
|  |  | `Wamp.Spec.C100_one_double` | lean/Verif/Props/Numbers.lean:17 |
|  |  | `Wamp.Spec.C100_argument` | lean/Verif/Props/Numbers.lean:20 |
|  |  | `Wamp.Spec.C100_restored` | lean/Verif/Props/Numbers.lean:94 |
|  |  | `Wamp.Spec.C100_relayed` | lean/Verif/Props/Numbers.lean:103 |
|  |  | `Wamp.Spec.C100_msgpack_single` | lean/Verif/Props/Numbers.lean:126 |
|  |  | `Wamp.Spec.C100_cbor_single` | lean/Verif/Props/Numbers.lean:140 |
|  |  | `Wamp.Spec.C100_cbor_half` | lean/Verif/Props/Numbers.lean:154 |
| C101 A refused login ends the same way with JSON, MessagePack and CBOR | proved | `Wamp.C101_anonymous` | lean/Verif/Props/RefusedFormats.lean:27 |
|  |  | `Wamp.C101_ticket` | lean/Verif/Props/RefusedFormats.lean:38 |
|  |  | `Wamp.C101_wampcra_refused` | lean/Verif/Props/RefusedFormats.lean:52 |
|  |  | `Wamp.C101_wampcra_wrong_secret` | lean/Verif/Props/RefusedFormats.lean:63 |
|  |  | `Wamp.C101_cryptosign_refused` | lean/Verif/Props/RefusedFormats.lean:92 |
|  |  | `Wamp.C101_cryptosign_wrong_key` | lean/Verif/Props/RefusedFormats.lean:109 |
| C102 A RawSocket connection carries the conversation | proved | `Wamp.Spec.C102_conversation` | lean/Verif/Props/Connection.lean:182 |
| C103 However another program writes a message, it is read | proved | `Wamp.Spec.C103_read` | lean/Verif/Props/Spellings.lean:11 |
|  |  | `Wamp.Spec.C103_message` | lean/Verif/Props/Spellings.lean:21 |
|  |  | `Wamp.Spec.C103_same` | lean/Verif/Props/Spellings.lean:27 |
|  |  | `Wamp.Spec.C103_one_value` | lean/Verif/Props/Spellings.lean:32 |
|  |  | `Wamp.Spec.C103_payload` | lean/Verif/Props/Spellings.lean:36 |
|  |  | `Wamp.Spec.C103_encodings` | lean/Verif/Props/Spellings.lean:66 |
| C104 What is sent follows the standards of the formats | proved | `Wamp.Spec.C104_written` | lean/Verif/Props/Spellings.lean:206 |
|  |  | `Wamp.Spec.C104_message` | lean/Verif/Props/Spellings.lean:214 |
|  |  | `Wamp.Spec.C104_any_reader` | lean/Verif/Props/Spellings.lean:218 |
|  |  | `Wamp.Spec.C104_payload` | lean/Verif/Props/Spellings.lean:224 |
| C105 Only who knows the secret answers a WAMP-CRA challenge | partial | `Wamp.Acceptor.C105_answer_partial` | lean/Verif/Props/Secret.lean:61 |
|  |  | `Wamp.Acceptor.C105_no_replay` | lean/Verif/Props/Secret.lean:79 |
|  |  | `Wamp.C105_equal_macs` | lean/Verif/Props/Secret.lean:29 |
|  |  | `Wamp.C105_same_key` | lean/Verif/Props/Secret.lean:35 |
|  |  | `Wamp.C105_short_secrets` | lean/Verif/Props/Secret.lean:43 |
|  |  | `Wamp.C105_wrong_secret` | lean/Verif/Props/Secret.lean:121 |
|  |  | `Wamp.C105_other_secret` | lean/Verif/Props/Secret.lean:135 |
|  |  | `Wamp.C105_other_secret_case` | lean/Verif/Props/Secret.lean:170 |
| C106 A float is written with as few digits as possible | proved | `Wamp.Spec.C106_shortest` | lean/Verif/Props/Shortest.lean:40 |
|  |  | `Wamp.Spec.C106_argument` | lean/Verif/Props/Shortest.lean:75 |
| C107 A client answers the challenges of its method, and no others | partial | `Wamp.C107_wampcra_partial` | lean/Verif/Props/Answers.lean:173 |
|  |  | `Wamp.C107_cryptosign_partial` | lean/Verif/Props/Answers.lean:210 |
|  |  | `Wamp.C107_ticket_partial` | lean/Verif/Props/Answers.lean:285 |
|  |  | `Wamp.Joiner.C107_next_challenge` | lean/Verif/Props/Answers.lean:293 |
|  |  | `Wamp.Joiner.C107_own_method_false` | lean/Verif/Props/Answers.lean:305 |
| C108 Names are only names | proved | `Wamp.Spec.C108_broker` | lean/Verif/Props/Renaming.lean:13 |
|  |  | `Wamp.Spec.C108_dealer` | lean/Verif/Props/Renaming.lean:19 |
| C109 The routers pass contents on without looking at them | proved | `Wamp.Spec.C109_broker` | lean/Verif/Props/Contents.lean:12 |
|  |  | `Wamp.Spec.C109_dealer` | lean/Verif/Props/Contents.lean:17 |
|  |  | `Wamp.Spec.C109_broker_alike` | lean/Verif/Props/Contents.lean:23 |
|  |  | `Wamp.Spec.C109_dealer_alike` | lean/Verif/Props/Contents.lean:28 |
|  |  | `Wamp.Spec.C109_broker_past` | lean/Verif/Props/Contents.lean:34 |
|  |  | `Wamp.Spec.C109_dealer_past` | lean/Verif/Props/Contents.lean:38 |
| C11 Payload encode/decode round trip | proved | `Wamp.C11_payload_round_trip` | lean/Verif/Props/Payload.lean:100 |
|  |  | `Wamp.C11_encode_error` | lean/Verif/Props/Payload.lean:111 |
|  |  | `Wamp.C11_none_serializer` | lean/Verif/Props/Payload.lean:118 |
|  |  | `Wamp.C11_none_refuses` | lean/Verif/Props/Payload.lean:148 |
|  |  | `Wamp.C11_unknown_serializer` | lean/Verif/Props/Payload.lean:174 |
| C110 The routers do not say who is behind a message | proved | `Wamp.Spec.C110_broker_inbox` | lean/Verif/Props/Renaming.lean:134 |
|  |  | `Wamp.Spec.C110_dealer_inbox` | lean/Verif/Props/Renaming.lean:140 |
|  |  | `Wamp.Spec.C110_publish` | lean/Verif/Props/Renaming.lean:147 |
|  |  | `Wamp.Spec.C110_call` | lean/Verif/Props/Renaming.lean:168 |
| C111 Until it lets a client in, a server tells nothing of the secrets | proved | `Wamp.Spec.C111_server` | lean/Verif/Props/Secrecy.lean:221 |
| C112 A client tells its secret to nobody before it is asked | proved | `Wamp.Spec.C112_wampcra` | lean/Verif/Props/Secrecy.lean:362 |
|  |  | `Wamp.Spec.C112_ticket` | lean/Verif/Props/Secrecy.lean:386 |
|  |  | `Wamp.Spec.C112_cryptosign` | lean/Verif/Props/Secrecy.lean:392 |
|  |  | `Wamp.Spec.C112_pbkdf2` | lean/Verif/Props/Secrecy.lean:369 |
| C113 A server forgets whatever does not move the handshake on | proved | `Wamp.Acceptor.C113_no_trace` | lean/Verif/Props/AcceptorExact.lean:117 |
|  |  | `Wamp.Acceptor.C113_trace` | lean/Verif/Props/AcceptorExact.lean:139 |
| C114 A session goes by ids, and ids are only names | proved | `Wamp.WAMPSession.C114_send` | lean/Verif/Props/SessionIds.lean:286 |
|  |  | `Wamp.WAMPSession.C114_receive` | lean/Verif/Props/SessionIds.lean:299 |
| C115 Why a call stays unanswered | proved | `Wamp.Spec.Net.C115_somewhere_or_lost` | lean/Verif/Props/NetworkStory.lean:117 |
|  |  | `Wamp.Spec.Net.C115_for_ever` | lean/Verif/Props/NetworkStory.lean:133 |
|  |  | `Wamp.Spec.Net.C115_quiet` | lean/Verif/Props/NetworkStory.lean:194 |
| C116 A server remembers one HELLO | proved | `Wamp.Acceptor.C116_server` | lean/Verif/Props/Server.lean:200 |
| C117 Two applications can share a router | partial | `Wamp.Spec.Tenants.C117_broker` | lean/Verif/Props/Tenants.lean:531 |
|  |  | `Wamp.Spec.Tenants.C117_dealer_partial` | lean/Verif/Props/Tenants.lean:1359 |
|  |  | `Wamp.Spec.Tenants.C117_dealer_false` | lean/Verif/Props/Tenants.lean:1412 |
| C118 A router everybody has left is as good as new | partial | `Wamp.Spec.AsNew.C118_broker` | lean/Verif/Props/AsNew.lean:94 |
|  |  | `Wamp.Spec.AsNew.C118_dealer_partial` | lean/Verif/Props/AsNew.lean:516 |
|  |  | `Wamp.Spec.AsNew.C118_dealer_exact` | lean/Verif/Props/AsNew.lean:312 |
|  |  | `Wamp.Spec.AsNew.C118_dealer_false` | lean/Verif/Props/AsNew.lean:534 |
| C119 Why a request stays unanswered | proved | `Wamp.Spec.Net.C119_underway_or_lost` | lean/Verif/Props/NetworkUnanswered.lean:16 |
|  |  | `Wamp.Spec.Net.C119_for_ever` | lean/Verif/Props/NetworkUnanswered.lean:23 |
| C12 Payload decoding rejects malformed payload values | proved | `Wamp.C12_payload_accepted` | lean/Verif/Props/Payload.lean:194 |
|  |  | `Wamp.C12_payload_rejected` | lean/Verif/Props/Payload.lean:230 |
|  |  | `Wamp.C12_dict_payload` | lean/Verif/Props/Payload.lean:242 |
|  |  | `Wamp.C12_other_values` | lean/Verif/Props/Payload.lean:247 |
| C120 From the first byte to the last message | proved | `Wamp.Spec.Stack.C120_stack` | lean/Verif/Props/Stack.lean:12 |
|  |  | `Wamp.Spec.Stack.C120_client_reads` | lean/Verif/Props/Stack.lean:76 |
|  |  | `Wamp.Spec.Stack.C120_router_reads` | lean/Verif/Props/Stack.lean:114 |
|  |  | `Wamp.Spec.Stack.C120_agreement` | lean/Verif/Props/Stack.lean:92 |
| C121 Nobody the authenticator has not approved of reaches the router | proved | `Wamp.Spec.Stack.C121_broker` | lean/Verif/Props/Strangers.lean:12 |
|  |  | `Wamp.Spec.Stack.C121_dealer` | lean/Verif/Props/Strangers.lean:25 |
|  |  | `Wamp.Spec.Stack.C121_identity` | lean/Verif/Props/Strangers.lean:109 |
|  |  | `Wamp.Spec.Stack.C121_refused` | lean/Verif/Props/Strangers.lean:121 |
|  |  | `Wamp.Spec.Stack.C121_wampcra` | lean/Verif/Props/Strangers.lean:142 |
| C122 Those who are not let in make no difference to those who are | proved | `Wamp.Spec.Stack.C122_bystanders` | lean/Verif/Props/Bystanders.lean:293 |
|  |  | `Wamp.Spec.Stack.C122_refused` | lean/Verif/Props/Bystanders.lean:301 |
| C123 Every login comes to an end | proved | `Wamp.Spec.Stack.C123_login_ends` | lean/Verif/Props/LoginEnds.lean:13 |
|  |  | `Wamp.Spec.Stack.C123_stays_ended` | lean/Verif/Props/LoginEnds.lean:30 |
|  |  | `Wamp.Spec.Stack.C123_no_deadlock` | lean/Verif/Props/LoginEnds.lean:41 |
| C124 Who has the credentials gets in | proved | `Wamp.Spec.Stack.C124_gets_in` | lean/Verif/Props/LoginSucceeds.lean:14 |
|  |  | `Wamp.Spec.Stack.C124_wampcra` | lean/Verif/Props/LoginSucceeds.lean:113 |
|  |  | `Wamp.Spec.Stack.C124_ticket` | lean/Verif/Props/LoginSucceeds.lean:130 |
|  |  | `Wamp.Spec.Stack.C124_cryptosign` | lean/Verif/Props/LoginSucceeds.lean:146 |
|  |  | `Wamp.Spec.Stack.C124_anonymous` | lean/Verif/Props/LoginSucceeds.lean:175 |
| C125 What a member is told comes from a member | proved | `Wamp.Spec.Stack.C125_network` | lean/Verif/Props/Members.lean:230 |
|  |  | `Wamp.Spec.Stack.C125_event` | lean/Verif/Props/Members.lean:266 |
|  |  | `Wamp.Spec.Stack.C125_invocation` | lean/Verif/Props/Members.lean:311 |
|  |  | `Wamp.Spec.Stack.C125_result` | lean/Verif/Props/Members.lean:351 |
|  |  | `Wamp.Spec.Stack.C125_error` | lean/Verif/Props/Members.lean:373 |
|  |  | `Wamp.Spec.Stack.C125_stream` | lean/Verif/Props/Members.lean:535 |
| C126 Who is not let in learns nothing about the others | proved | `Wamp.Spec.Stack.C126_secrecy` | lean/Verif/Props/Unseen.lean:89 |
|  |  | `Wamp.Spec.Stack.C126_same_view` | lean/Verif/Props/Unseen.lean:180 |
| C127 The whole system comes to rest, and then everybody has been answered | proved | `Wamp.Spec.Stack.C127_comes_to_rest` | lean/Verif/Props/StackRest.lean:326 |
|  |  | `Wamp.Spec.Stack.C127_messages` | lean/Verif/Props/StackRest.lean:390 |
|  |  | `Wamp.Spec.Stack.C127_progress` | lean/Verif/Props/StackRest.lean:402 |
|  |  | `Wamp.Spec.Stack.C127_calls_answered` | lean/Verif/Props/StackRest.lean:520 |
|  |  | `Wamp.Spec.Stack.C127_requests_answered` | lean/Verif/Props/StackRest.lean:543 |
|  |  | `Wamp.Spec.Stack.C127_members` | lean/Verif/Props/StackRest.lean:571 |
| C128 Only the present matters to the router, not how it came about | proved | `Wamp.Spec.Present.C128_broker` | lean/Verif/Props/Present.lean:371 |
|  |  | `Wamp.Spec.Present.C128_broker_exact` | lean/Verif/Props/Present.lean:407 |
|  |  | `Wamp.Spec.Present.C128_publish` | lean/Verif/Props/Present.lean:452 |
|  |  | `Wamp.Spec.Present.C128_refused` | lean/Verif/Props/Present.lean:459 |
|  |  | `Wamp.Spec.Present.C128_dealer` | lean/Verif/Props/Present.lean:973 |
|  |  | `Wamp.Spec.Present.C128_dealer_exact` | lean/Verif/Props/PresentExact.lean:310 |
|  |  | `Wamp.Spec.Present.C128_refused_dealer` | lean/Verif/Props/Present.lean:1025 |
|  |  | `Wamp.Spec.Present.C128_answered` | lean/Verif/Props/Present.lean:1127 |
| C129 Between a member and the router nothing is lost, repeated or reordered | proved | `Wamp.Spec.Stack.C129_up` | lean/Verif/Props/Channels.lean:642 |
|  |  | `Wamp.Spec.Stack.C129_down` | lean/Verif/Props/Channels.lean:692 |
|  |  | `Wamp.Spec.Stack.C129_at_rest` | lean/Verif/Props/Channels.lean:729 |
| C13 RawSocket header round trip | proved | `Wamp.RawSocket.C13_header_round_trip` | lean/Verif/Props/RawSocket.lean:54 |
|  |  | `Wamp.RawSocket.C13_header_decode_encode` | lean/Verif/Props/RawSocket.lean:71 |
|  |  | `Wamp.RawSocket.C13_bad_kind` | lean/Verif/Props/RawSocket.lean:92 |
| C130 Who still waits when everything has come to rest | proved | `Wamp.Spec.Stack.C130_calls` | lean/Verif/Props/StackLost.lean:267 |
|  |  | `Wamp.Spec.Stack.C130_requests` | lean/Verif/Props/StackLost.lean:306 |
|  |  | `Wamp.Spec.Stack.C130_calls_for_ever` | lean/Verif/Props/StackLost.lean:364 |
|  |  | `Wamp.Spec.Stack.C130_requests_for_ever` | lean/Verif/Props/StackLost.lean:426 |
| C131 Only the order at the router and at each client makes a difference | proved | `Wamp.Spec.Stack.C131_order` | lean/Verif/Props/Order.lean:845 |
|  |  | `Wamp.Spec.Stack.C131_sessions` | lean/Verif/Props/Order.lean:853 |
|  |  | `Wamp.Spec.Stack.C131_same` | lean/Verif/Props/Order.lean:870 |
|  |  | `Wamp.Spec.Stack.C131_catch_up` | lean/Verif/Props/Order.lean:925 |
| C132 Unrelated requests may be handled in either order | proved | `Wamp.Spec.Unrelated.C132_broker` | lean/Verif/Props/Unrelated.lean:367 |
|  |  | `Wamp.Spec.Unrelated.C132_dealer` | lean/Verif/Props/Unrelated.lean:934 |
|  |  | `Wamp.Spec.Unrelated.C132_same_topic` | lean/Verif/Props/Unrelated.lean:984 |
|  |  | `Wamp.Spec.Unrelated.C132_same_procedure` | lean/Verif/Props/Unrelated.lean:1057 |
| C133 Two applications can share a network | proved | `Wamp.Spec.Neighbours.C133_neighbours` | lean/Verif/Props/Neighbours.lean:1168 |
|  |  | `Wamp.Spec.Neighbours.C133_errors_needed` | lean/Verif/Props/Neighbours.lean:1210 |
| C134 When everybody has left, newcomers cannot tell that anybody was there | proved | `Wamp.Spec.Newcomers.C134_newcomers` | lean/Verif/Props/Newcomers.lean:422 |
|  |  | `Wamp.Spec.Newcomers.C134_ids_needed` | lean/Verif/Props/Newcomers.lean:556 |
| C135 What visitors did at a broker cannot be told once they have left | proved | `Wamp.Spec.Visitors.C135_left` | lean/Verif/Props/Visitors.lean:233 |
|  |  | `Wamp.Spec.Visitors.C135_published` | lean/Verif/Props/Visitors.lean:256 |
|  |  | `Wamp.Spec.Visitors.C135_granted` | lean/Verif/Props/Visitors.lean:301 |
| C136 What is undone leaves no trace with the routers | partial | `Wamp.Spec.Undone.C136_left_broker` | lean/Verif/Props/Undone.lean:19 |
|  |  | `Wamp.Spec.Undone.C136_unsubscribed` | lean/Verif/Props/Undone.lean:42 |
|  |  | `Wamp.Spec.Undone.C136_left_dealer` | lean/Verif/Props/Undone.lean:93 |
|  |  | `Wamp.Spec.Undone.C136_unregistered` | lean/Verif/Props/Undone.lean:117 |
|  |  | `Wamp.Spec.Undone.C136_progress` | lean/Verif/Props/Undone.lean:149 |
|  |  | `Wamp.Spec.Present.C128_answered` | lean/Verif/Props/Present.lean:1127 |
|  |  | `Wamp.Spec.Undone.C136_failed_partial` | lean/Verif/Props/Undone.lean:177 |
|  |  | `Wamp.Spec.Undone.C136_failed_false` | lean/Verif/Props/Undone.lean:246 |
| C137 What is short enough when it is sent is short enough for everybody | proved | `Wamp.Spec.Stack.C137_room` | lean/Verif/Props/Room.lean:10 |
|  |  | `Wamp.Spec.Stack.C137_broker_adds` | lean/Verif/Props/Room.lean:41 |
|  |  | `Wamp.Spec.Stack.C137_dealer_adds` | lean/Verif/Props/Room.lean:46 |
|  |  | `Wamp.Spec.Stack.C137_nothing_too_long` | lean/Verif/Props/Room.lean:54 |
|  |  | `Wamp.Spec.Stack.C137_stack` | lean/Verif/Props/Room.lean:77 |
|  |  | `Wamp.Spec.Stack.C137_tame` | lean/Verif/Props/Room.lean:82 |
|  |  | `Wamp.Spec.Stack.C137_sender_cannot_tell` | lean/Verif/Props/Room.lean:149 |
| C138 Nobody is flooded | proved | `Wamp.Spec.Flood.C138_broker` | lean/Verif/Props/Flood.lean:39 |
|  |  | `Wamp.Spec.Flood.C138_dealer` | lean/Verif/Props/Flood.lean:89 |
|  |  | `Wamp.Spec.Flood.C138_no_flood` | lean/Verif/Props/Flood.lean:391 |
|  |  | `Wamp.Spec.Flood.C138_own_count_twice` | lean/Verif/Props/Flood.lean:416 |
| C139 Nobody gets what they have not asked for | proved | `Wamp.Spec.Asked.C139_broker` | lean/Verif/Props/Asked.lean:40 |
|  |  | `Wamp.Spec.Asked.C139_dealer` | lean/Verif/Props/Asked.lean:101 |
|  |  | `Wamp.Spec.Asked.C139_owed` | lean/Verif/Props/Asked.lean:417 |
|  |  | `Wamp.Spec.Asked.C139_silent` | lean/Verif/Props/Asked.lean:423 |
| C14 RawSocket header never misreports a length | partial | `Wamp.RawSocket.C14_length_false` | lean/Verif/Props/RawSocket.lean:100 |
|  |  | `Wamp.RawSocket.C14_length_partial` | lean/Verif/Props/RawSocket.lean:109 |
| C140 Never more answers than requests | proved | `Wamp.Spec.Tally.C140_no_more_answers` | lean/Verif/Props/Tally.lean:391 |
|  |  | `Wamp.Spec.Tally.C140_once` | lean/Verif/Props/Tally.lean:398 |
|  |  | `Wamp.Spec.Tally.C140_handed` | lean/Verif/Props/TallyBytes.lean:141 |
|  |  | `Wamp.Spec.Tally.C140_progress_not_counted` | lean/Verif/Props/Tally.lean:428 |
| C141 The answer is the last word | proved | `Wamp.Spec.Tally.C141_last_word` | lean/Verif/Props/LastWord.lean:342 |
|  |  | `Wamp.Spec.Tally.C141_handed` | lean/Verif/Props/TallyBytes.lean:149 |
| C142 Nobody overhears | proved | `Wamp.Spec.Overheard.C142_nobody_overhears` | lean/Verif/Props/Overheard.lean:435 |
|  |  | `Wamp.Spec.Overheard.C142_topics_are_private` | lean/Verif/Props/Overheard.lean:441 |
|  |  | `Wamp.Spec.Overheard.C142_procedures_are_private` | lean/Verif/Props/Overheard.lean:449 |
|  |  | `Wamp.Spec.Overheard.C142_handed` | lean/Verif/Props/OverheardBytes.lean:14 |
|  |  | `Wamp.Spec.Overheard.C142_errors_from_anybody` | lean/Verif/Props/Overheard.lean:497 |
| C15 RawSocket handshake round trip | proved | `Wamp.RawSocket.C15_handshake_round_trip` | lean/Verif/Props/RawSocket.lean:135 |
|  |  | `Wamp.RawSocket.C15_handshake_exact` | lean/Verif/Props/RawSocket.lean:160 |
|  |  | `Wamp.RawSocket.C15_other_sizes_fail` | lean/Verif/Props/RawSocket.lean:168 |
| C16 RawSocket handshake validation | partial | `Wamp.RawSocket.C16_validation_false` | lean/Verif/Props/RawSocket.lean:189 |
|  |  | `Wamp.RawSocket.C16_validation_partial` | lean/Verif/Props/RawSocket.lean:197 |
| C17 Generated ids are valid | proved | `Wamp.C17_ids_valid` | lean/Verif/Props/Idgen.lean:26 |
| C18 Generated ids are unique within a period | proved | `Wamp.C18_ids_unique` | lean/Verif/Props/Idgen.lean:36 |
| C19 Exact event delivery | proved | `Wamp.Broker.C19_exact_delivery` | lean/Verif/Props/Broker.lean:36 |
|  |  | `Wamp.Broker.C19_subscribers_iff` | lean/Verif/Props/Broker.lean:56 |
|  |  | `Wamp.Broker.C19_known_iff` | lean/Verif/Props/Broker.lean:65 |
|  |  | `Wamp.Broker.C19_unknown_publisher` | lean/Verif/Props/Broker.lean:69 |
|  |  | `Wamp.Broker.C19_no_clash` | lean/Verif/Props/Broker.lean:30 |
|  |  | `Wamp.Broker.C19_order` | lean/Verif/Props/BrokerEffects.lean:134 |
| C20 Event carries the recipient's subscription id and the publisher's payload | proved | `Wamp.Broker.C20_event_contents` | lean/Verif/Props/Broker.lean:85 |
|  |  | `Wamp.Broker.C20_held_id_is_replied` | lean/Verif/Props/Broker.lean:112 |
| C21 Subscription id identifies the topic | proved | `Wamp.Broker.C21_topic_determines_id` | lean/Verif/Props/Broker.lean:123 |
|  |  | `Wamp.Broker.C21_id_determines_topic` | lean/Verif/Props/Broker.lean:128 |
|  |  | `Wamp.Broker.C21_ids_in_range` | lean/Verif/Props/Broker.lean:137 |
| C22 Subscribe outcome | proved | `Wamp.Broker.C22_subscribe_known` | lean/Verif/Props/Broker.lean:151 |
|  |  | `Wamp.Broker.C22_subscribe_unknown` | lean/Verif/Props/Broker.lean:168 |
|  |  | `Wamp.Broker.C22_delivery` | lean/Verif/Props/BrokerEffects.lean:21 |
| C23 Subscribe is idempotent | proved | `Wamp.Broker.C23_subscribe_idempotent` | lean/Verif/Props/Broker.lean:185 |
|  |  | `Wamp.Broker.C23_delivery` | lean/Verif/Props/BrokerEffects.lean:37 |
| C24 Unsubscribe outcome | proved | `Wamp.Broker.C24_unsubscribe_held` | lean/Verif/Props/Broker.lean:240 |
|  |  | `Wamp.Broker.C24_unsubscribe_not_held` | lean/Verif/Props/Broker.lean:260 |
|  |  | `Wamp.Broker.C24_delivery` | lean/Verif/Props/BrokerEffects.lean:55 |
| C25 Session removal is complete and isolated | proved | `Wamp.Broker.C25_remove_known` | lean/Verif/Props/Broker.lean:281 |
|  |  | `Wamp.Broker.C25_remove_unknown` | lean/Verif/Props/Broker.lean:292 |
|  |  | `Wamp.Broker.C25_never_recipient` | lean/Verif/Props/Broker.lean:304 |
|  |  | `Wamp.Broker.C25_fails_after_wrap` | lean/Verif/Props/BrokerWrap.lean:80 |
|  |  | `Wamp.Broker.C25_delivery` | lean/Verif/Props/BrokerEffects.lean:91 |
| C26 has_subscription agrees with deliverability | proved | `Wamp.Broker.C26_has_subscription` | lean/Verif/Props/Broker.lean:372 |
| C27 Acknowledgement | proved | `Wamp.Broker.C27_acknowledge` | lean/Verif/Props/Broker.lean:409 |
| C28 Publication ids are fresh | proved | `Wamp.Broker.C28_publication_ids` | lean/Verif/Props/Broker.lean:429 |
|  |  | `Wamp.Broker.C28_publication_ids_short` | lean/Verif/Props/Broker.lean:436 |
| C29 Broker failures are atomic | proved | `Wamp.Broker.C29_failures_are_atomic` | lean/Verif/Props/Broker.lean:448 |
| C30 Exclusive registration | proved | `Wamp.Dealer.C30_exclusive` | lean/Verif/Props/Dealer.lean:53 |
|  |  | `Wamp.Dealer.C30_register_free` | lean/Verif/Props/Dealer.lean:91 |
|  |  | `Wamp.Dealer.C30_register_taken` | lean/Verif/Props/Dealer.lean:111 |
|  |  | `Wamp.Dealer.C30_register_unknown` | lean/Verif/Props/Dealer.lean:126 |
|  |  | `Wamp.Dealer.C30_known_iff` | lean/Verif/Props/Dealer.lean:44 |
|  |  | `Wamp.Dealer.C30_held_iff` | lean/Verif/Props/Dealer.lean:49 |
|  |  | `Wamp.Dealer.C30_ids_not_exhausted` | lean/Verif/Props/Dealer.lean:36 |
|  |  | `Wamp.Dealer.C30_routing` | lean/Verif/Props/DealerEffects.lean:36 |
|  |  | `Wamp.Dealer.C30_routing_refused` | lean/Verif/Props/DealerEffects.lean:57 |
| C31 Call routing | proved | `Wamp.Dealer.C31_call_routed` | lean/Verif/Props/Dealer.lean:141 |
|  |  | `Wamp.Dealer.C31_call_no_such_procedure` | lean/Verif/Props/Dealer.lean:182 |
| C32 Result routing | partial | `Wamp.Dealer.C32_accepted_yield` | lean/Verif/Props/Dealer.lean:332 |
|  |  | `Wamp.Dealer.C32_result_routing_partial` | lean/Verif/Props/Dealer.lean:349 |
|  |  | `Wamp.Dealer.C32_noReuse_of_distinct` | lean/Verif/Props/Dealer.lean:369 |
|  |  | `Wamp.Dealer.C32_fails_for_reused_request_id` | lean/Verif/Props/Dealer.lean:426 |
|  |  | `Wamp.Dealer.C32_exact` | lean/Verif/Props/Slots.lean:17 |
| C33 Yield authorisation | proved | `Wamp.Dealer.C33_yield_authorisation` | lean/Verif/Props/Dealer.lean:204 |
|  |  | `Wamp.Dealer.C33_pending_iff` | lean/Verif/Props/Dealer.lean:199 |
| C34 Error authorisation | partial | `Wamp.Dealer.C34_error_authorisation_fails` | lean/Verif/Props/Dealer.lean:481 |
|  |  | `Wamp.Dealer.C34_not_authorised` | lean/Verif/Props/Dealer.lean:489 |
|  |  | `Wamp.Dealer.C34_error_authorisation_partial` | lean/Verif/Props/Dealer.lean:498 |
|  |  | `Wamp.Dealer.C34_exact` | lean/Verif/Props/DealerExact.lean:14 |
| C35 Error routing | proved | `Wamp.Dealer.C35_error_routed` | lean/Verif/Props/Dealer.lean:219 |
|  |  | `Wamp.Dealer.C35_error_rejected` | lean/Verif/Props/Dealer.lean:238 |
|  |  | `Wamp.Dealer.C35_call_ended` | lean/Verif/Props/DealerEffects.lean:108 |
| C36 At most one final outcome | proved | `Wamp.Dealer.C36_one_final_outcome` | lean/Verif/Props/Dealer.lean:258 |
| C37 Every invocation can be answered | partial | `Wamp.Dealer.C37_new_invocation_partial` | lean/Verif/Props/Dealer.lean:549 |
|  |  | `Wamp.Dealer.C37_plain_call_partial` | lean/Verif/Props/Dealer.lean:569 |
|  |  | `Wamp.Dealer.C37_continuation_partial` | lean/Verif/Props/Dealer.lean:600 |
|  |  | `Wamp.Dealer.C37_fails_for_stale_continuation` | lean/Verif/Props/Dealer.lean:643 |
|  |  | `Wamp.Dealer.C37_exact` | lean/Verif/Props/Slots.lean:71 |
| C38 Distinct concurrent invocations | proved | `Wamp.Dealer.C38_fresh_invocation_id` | lean/Verif/Props/Dealer.lean:528 |
|  |  | `Wamp.Dealer.C38_fails_after_wrap` | lean/Verif/Props/DealerWrap.lean:71 |
| C39 Progressive results | proved | `Wamp.Dealer.C39_progressive_results` | lean/Verif/Props/Dealer.lean:433 |
| C40 Progressive call continuation | partial | `Wamp.Dealer.C40_continuation_partial` | lean/Verif/Props/Dealer.lean:580 |
|  |  | `Wamp.Dealer.C40_fails_for_other_callee` | lean/Verif/Props/Dealer.lean:634 |
|  |  | `Wamp.Dealer.C40_exact` | lean/Verif/Props/Slots.lean:120 |
| C41 Unregister outcome | proved | `Wamp.Dealer.C41_unregister_held` | lean/Verif/Props/Dealer.lean:657 |
|  |  | `Wamp.Dealer.C41_unregister_not_held` | lean/Verif/Props/Dealer.lean:679 |
|  |  | `Wamp.Dealer.C41_routing` | lean/Verif/Props/DealerEffects.lean:68 |
| C42 Dealer session removal | proved | `Wamp.Dealer.C42_remove_known` | lean/Verif/Props/Dealer.lean:701 |
|  |  | `Wamp.Dealer.C42_remove_unknown` | lean/Verif/Props/Dealer.lean:712 |
|  |  | `Wamp.Dealer.C42_never_called` | lean/Verif/Props/Dealer.lean:719 |
|  |  | `Wamp.Dealer.C42_routing` | lean/Verif/Props/DealerEffects.lean:86 |
| C43 Departed callee's calls are settled | partial | `Wamp.Dealer.C43_departed_callee_fails` | lean/Verif/Props/Dealer.lean:779 |
|  |  | `Wamp.Dealer.C43_other_calls_unaffected_partial` | lean/Verif/Props/Dealer.lean:799 |
|  |  | `Wamp.Dealer.C43_exact` | lean/Verif/Props/DealerExact.lean:105 |
| C44 has_registration agrees with routing | proved | `Wamp.Dealer.C44_has_registration` | lean/Verif/Props/Dealer.lean:816 |
| C45 Dealer failures are atomic | partial | `Wamp.Dealer.C45_failures` | lean/Verif/Props/Dealer.lean:862 |
|  |  | `Wamp.Dealer.C45_failures_are_atomic_partial` | lean/Verif/Props/Dealer.lean:882 |
|  |  | `Wamp.Dealer.C45_fails_for_reused_request_id` | lean/Verif/Props/Dealer.lean:906 |
|  |  | `Wamp.Dealer.C45_exact` | lean/Verif/Props/Slots.lean:43 |
| C46 Replies match requests | partial | `Wamp.WAMPSession.C46_reply_iff_outstanding` | lean/Verif/Props/Session.lean:56 |
|  |  | `Wamp.WAMPSession.C46_unsubscribed` | lean/Verif/Props/Session.lean:83 |
|  |  | `Wamp.WAMPSession.C46_unregistered` | lean/Verif/Props/Session.lean:103 |
|  |  | `Wamp.WAMPSession.C46_outstanding_names` | lean/Verif/Props/Session.lean:124 |
|  |  | `Wamp.WAMPSession.C46_other_rejected` | lean/Verif/Props/Session.lean:132 |
|  |  | `Wamp.WAMPSession.C46_undecodable` | lean/Verif/Props/Session.lean:152 |
|  |  | `Wamp.WAMPSession.C46_receive_bytes` | lean/Verif/Props/Session.lean:158 |
|  |  | `Wamp.WAMPSession.C46_replies_match_requests_partial` | lean/Verif/Props/Session.lean:186 |
|  |  | `Wamp.WAMPSession.C46_fails_unsubscribed` | lean/Verif/Props/Session.lean:176 |
|  |  | `Wamp.WAMPSession.C46_accepted_exact` | lean/Verif/Props/SessionGrammar.lean:379 |
|  |  | `Wamp.WAMPSession.C46_refused_exact` | lean/Verif/Props/SessionGrammar.lean:325 |
| C47 Each request is answered at most once | proved | `Wamp.WAMPSession.C47_answered_at_most_once` | lean/Verif/Props/Session.lean:222 |
| C48 Events and invocations need a live grant | proved | `Wamp.WAMPSession.C48_event_iff_granted` | lean/Verif/Props/Session.lean:270 |
|  |  | `Wamp.WAMPSession.C48_invocation_iff_granted` | lean/Verif/Props/Session.lean:287 |
| C49 Yield only for received invocations | proved | `Wamp.WAMPSession.C49_yield_iff_unanswered` | lean/Verif/Props/Session.lean:308 |
|  |  | `Wamp.WAMPSession.C49_yield_at_most_once` | lean/Verif/Props/Session.lean:327 |
|  |  | `Wamp.WAMPSession.C49_error_only_for_invocations` | lean/Verif/Props/Session.lean:391 |
| C50 Session supports progressive results | partial | `Wamp.WAMPSession.C50_fails_result` | lean/Verif/Props/Session.lean:406 |
|  |  | `Wamp.WAMPSession.C50_fails_witness` | lean/Verif/Props/Session.lean:426 |
|  |  | `Wamp.WAMPSession.C50_fails_yield` | lean/Verif/Props/Session.lean:435 |
|  |  | `Wamp.WAMPSession.C50_progressive_partial` | lean/Verif/Props/Session.lean:445 |
| C51 Session bookkeeping is independent per kind | partial | `Wamp.WAMPSession.C51_independent` | lean/Verif/Props/Session.lean:457 |
|  |  | `Wamp.WAMPSession.C51_withdrawal_partial` | lean/Verif/Props/Session.lean:481 |
|  |  | `Wamp.WAMPSession.C51_fails_unsubscribed` | lean/Verif/Props/Session.lean:566 |
| C52 Failed send leaves the session unchanged | partial | `Wamp.WAMPSession.C52_fails_serializer` | lean/Verif/Props/Session.lean:579 |
|  |  | `Wamp.WAMPSession.C52_failed_send_partial` | lean/Verif/Props/Session.lean:588 |
|  |  | `Wamp.WAMPSession.C52_counts_as_sent` | lean/Verif/Props/SessionIds.lean:343 |
| C53 WELCOME only after authentication | proved | `Wamp.Acceptor.C53_welcome_justified` | lean/Verif/Props/Acceptor.lean:44 |
|  |  | `Wamp.Acceptor.C53_welcome_fields` | lean/Verif/Props/Acceptor.lean:63 |
| C54 WAMP-CRA WELCOME requires a valid response to this challenge | proved | `Wamp.Acceptor.C54_wampcra_welcome` | lean/Verif/Props/Acceptor.lean:87 |
|  |  | `Wamp.Acceptor.C54_wampcra_accepted` | lean/Verif/Props/Acceptor.lean:122 |
| C55 Cryptosign WELCOME requires a signature over this challenge | partial | `Wamp.Acceptor.C55_replay` | lean/Verif/Props/Acceptor.lean:165 |
|  |  | `Wamp.Acceptor.C55_cryptosign_welcome_false` | lean/Verif/Props/Acceptor.lean:187 |
|  |  | `Wamp.Acceptor.C55_cryptosign_welcome_partial` | lean/Verif/Props/Acceptor.lean:211 |
|  |  | `Wamp.Acceptor.C55_exact` | lean/Verif/Props/AcceptorExact.lean:292 |
| C56 At most one WELCOME, then closed | proved | `Wamp.Acceptor.C56_at_most_one_welcome` | lean/Verif/Props/Acceptor.lean:251 |
|  |  | `Wamp.Acceptor.C56_closed_after_welcome` | lean/Verif/Props/Acceptor.lean:280 |
| C57 Abort is terminal | partial | `Wamp.Acceptor.C57_abort_terminal_partial` | lean/Verif/Props/Acceptor.lean:298 |
|  |  | `Wamp.Acceptor.C57_rejected_hello_retry` | lean/Verif/Props/Acceptor.lean:374 |
|  |  | `Wamp.Acceptor.C57_rejected_ticket_retry` | lean/Verif/Props/Acceptor.lean:393 |
|  |  | `Wamp.Acceptor.C57_aborted_exact` | lean/Verif/Props/AcceptorExact.lean:216 |
|  |  | `Wamp.Acceptor.C57_rejection_forgotten` | lean/Verif/Props/AcceptorExact.lean:263 |
| C58 Acceptor session details | proved | `Wamp.Acceptor.C58_session_details` | lean/Verif/Props/Acceptor.lean:424 |
|  |  | `Wamp.Acceptor.C58_not_yet` | lean/Verif/Props/Acceptor.lean:431 |
|  |  | `Wamp.Acceptor.C58_emitted` | lean/Verif/Props/Acceptor.lean:441 |
| C59 Acceptor protocol order | proved | `Wamp.Acceptor.C59_authenticate_needs_challenge` | lean/Verif/Props/Acceptor.lean:453 |
|  |  | `Wamp.Acceptor.C59_no_second_hello` | lean/Verif/Props/Acceptor.lean:471 |
| C60 Acceptor always answers at byte level | partial | `Wamp.Acceptor.C60_receive_reply` | lean/Verif/Props/Acceptor.lean:489 |
|  |  | `Wamp.Acceptor.C60_receive_state` | lean/Verif/Props/Acceptor.lean:513 |
|  |  | `Wamp.Acceptor.C60_fails_abort` | lean/Verif/Props/Acceptor.lean:522 |
|  |  | `Wamp.Acceptor.C60_fails_no_authextra` | lean/Verif/Props/Acceptor.lean:529 |
|  |  | `Wamp.Acceptor.C60_always_answers_partial` | lean/Verif/Props/Acceptor.lean:538 |
|  |  | `Wamp.Acceptor.C60_exact` | lean/Verif/Props/Server.lean:310 |
| C61 Joiner state machine | proved | `Wamp.Joiner.C61_welcome` | lean/Verif/Props/Joiner.lean:19 |
|  |  | `Wamp.Joiner.C61_challenge` | lean/Verif/Props/Joiner.lean:40 |
|  |  | `Wamp.Joiner.C61_other` | lean/Verif/Props/Joiner.lean:62 |
|  |  | `Wamp.Joiner.C61_details` | lean/Verif/Props/Joiner.lean:76 |
|  |  | `Wamp.Joiner.C61_no_details` | lean/Verif/Props/Joiner.lean:85 |
|  |  | `Wamp.Joiner.C61_hello_contents` | lean/Verif/Props/Joiner.lean:96 |
|  |  | `Wamp.Joiner.C61_receive_bytes` | lean/Verif/Props/Joiner.lean:106 |
| C62 Joiner reports aborts | proved | `Wamp.Joiner.C62_abort` | lean/Verif/Props/Joiner.lean:150 |
|  |  | `Wamp.Joiner.C62_abort_bytes` | lean/Verif/Props/Joiner.lean:156 |
| C63 Handshake agreement | proved | `Wamp.C63_no_authenticator` | lean/Verif/Props/Handshake.lean:85 |
|  |  | `Wamp.C63_anonymous` | lean/Verif/Props/Handshake.lean:95 |
|  |  | `Wamp.C63_ticket` | lean/Verif/Props/Handshake.lean:111 |
|  |  | `Wamp.C63_wampcra` | lean/Verif/Props/Handshake.lean:131 |
|  |  | `Wamp.C63_cryptosign` | lean/Verif/Props/Handshake.lean:160 |
|  |  | `Wamp.C63_details_compare_equal` | lean/Verif/Props/Handshake.lean:202 |
| C64 WAMP-CRA sign/verify | proved | `Wamp.C64_verify_iff` | lean/Verif/Props/Auth.lean:39 |
|  |  | `Wamp.C64_verify_total` | lean/Verif/Props/Auth.lean:48 |
|  |  | `Wamp.C64_sign_verifies` | lean/Verif/Props/Auth.lean:94 |
|  |  | `Wamp.C64_no_other` | lean/Verif/Props/Auth.lean:99 |
| C65 Salted WAMP-CRA | partial | `Wamp.C65_client_salted` | lean/Verif/Props/Auth.lean:113 |
|  |  | `Wamp.C65_client_refuses` | lean/Verif/Props/Auth.lean:129 |
|  |  | `Wamp.C65_client_plain` | lean/Verif/Props/Auth.lean:146 |
|  |  | `Wamp.C65_salt_unreadable` | lean/Verif/Props/Auth.lean:154 |
|  |  | `Wamp.Acceptor.C65_acceptor_never_announces_salt` | lean/Verif/Props/Acceptor.lean:650 |
|  |  | `Wamp.Acceptor.C65_salted_login_fails` | lean/Verif/Props/Acceptor.lean:682 |
| C66 Cryptosign sign/verify | proved | `Wamp.C66_sign_verifies` | lean/Verif/Props/Auth.lean:160 |
|  |  | `Wamp.C66_own_challenges` | lean/Verif/Props/Auth.lean:170 |
|  |  | `Wamp.C66_verify_iff` | lean/Verif/Props/Auth.lean:173 |
|  |  | `Wamp.C66_bad_challenge` | lean/Verif/Props/Auth.lean:185 |
|  |  | `Wamp.C66_keypair` | lean/Verif/Props/Auth.lean:198 |
| C67 Router and client agree on pub/sub | proved | `Wamp.Spec.Net.C67_who_sends_what` | lean/Verif/Props/Network.lean:70 |
|  |  | `Wamp.Spec.Net.C67_client_never_rejects` | lean/Verif/Props/Network.lean:78 |
|  |  | `Wamp.Spec.Net.C67_unsubscribe_accepted` | lean/Verif/Props/Network.lean:87 |
|  |  | `Wamp.Spec.Net.C67_agreement` | lean/Verif/Props/Network.lean:141 |
|  |  | `Wamp.Spec.Net.C67_needs_fresh_request_ids` | lean/Verif/Props/Network.lean:167 |
| C68 Router and client agree on RPC | partial | `Wamp.Spec.Net.C68_client_never_rejects_partial` | lean/Verif/Props/NetworkRpc.lean:105 |
|  |  | `Wamp.Spec.Net.C68_dealer_never_rejects_partial` | lean/Verif/Props/NetworkRpc.lean:114 |
|  |  | `Wamp.Spec.Net.C68_agreement_partial` | lean/Verif/Props/NetworkRpc.lean:135 |
|  |  | `Wamp.Spec.Net.C68_fails_for_unsolicited_error` | lean/Verif/Props/NetworkRpc.lean:154 |
|  |  | `Wamp.Spec.Net.C68_fails_for_rogue_error` | lean/Verif/Props/NetworkRpc.lean:166 |
|  |  | `Wamp.Spec.Net.C68_needs_distinct_sessions` | lean/Verif/Props/NetworkRpc.lean:177 |
|  |  | `Wamp.Spec.Net.C68_needs_fresh_request_ids` | lean/Verif/Props/NetworkRpc.lean:187 |
|  |  | `Wamp.Spec.Net.C68_needs_plain_calls` | lean/Verif/Props/NetworkRpc.lean:203 |
| C69 Validation helpers accept exactly what they promise | partial | `Wamp.Legacy.C69_strings` | lean/Verif/Props/Legacy.lean:12 |
|  |  | `Wamp.Legacy.C69_details` | lean/Verif/Props/Legacy.lean:45 |
|  |  | `Wamp.Legacy.C69_session_id_partial` | lean/Verif/Props/Legacy.lean:75 |
|  |  | `Wamp.Legacy.C69_fails_zero` | lean/Verif/Props/Legacy.lean:100 |
| C70 ApplicationError text loses nothing | proved | `Wamp.Legacy.C70_shows_everything` | lean/Verif/Props/Legacy.lean:137 |
|  |  | `Wamp.Legacy.C70_bare_iff` | lean/Verif/Props/Legacy.lean:155 |
|  |  | `Wamp.Legacy.C70_error_shows_everything` | lean/Verif/Props/Legacy.lean:167 |
|  |  | `Wamp.Legacy.C70_error_bare_iff` | lean/Verif/Props/Legacy.lean:184 |
| C71 Answers come from the right callee | proved | `Wamp.Spec.Net.C71_result` | lean/Verif/Props/NetworkStory.lean:20 |
|  |  | `Wamp.Spec.Net.C71_error` | lean/Verif/Props/NetworkStory.lean:30 |
|  |  | `Wamp.Spec.Net.C71_invocation` | lean/Verif/Props/NetworkStory.lean:43 |
|  |  | `Wamp.Spec.Net.C71_one_answer` | lean/Verif/Props/NetworkStory.lean:51 |
|  |  | `Wamp.Spec.Net.C71_needs_errors_answer` | lean/Verif/Props/NetworkStory.lean:90 |
| C72 No call is lost | partial | `Wamp.Spec.Net.C72_where_calls_are_partial` | lean/Verif/Props/NetworkStory.lean:173 |
|  |  | `Wamp.Spec.Net.C72_quiet_partial` | lean/Verif/Props/NetworkStory.lean:208 |
|  |  | `Wamp.Spec.Net.C72_fails_when_callee_leaves` | lean/Verif/Props/NetworkStory.lean:253 |
| C73 The dealer passes binary payloads on | partial | `Wamp.Dealer.C73_invocation_payload_partial` | lean/Verif/Props/DealerPayload.lean:15 |
|  |  | `Wamp.Dealer.C73_invocation_denies_binary` | lean/Verif/Props/DealerPayload.lean:27 |
|  |  | `Wamp.Dealer.C73_result_drops_payload` | lean/Verif/Props/DealerPayload.lean:39 |
|  |  | `Wamp.Dealer.C73_fails` | lean/Verif/Props/DealerPayload.lean:57 |
| C74 Subscribers see every publication exactly once and in order | proved | `Wamp.Spec.Net.C74_exactly_once_in_order` | lean/Verif/Props/NetworkStream.lean:16 |
|  |  | `Wamp.Spec.Net.C74_ids_increase` | lean/Verif/Props/NetworkStream.lean:22 |
|  |  | `Wamp.Spec.Net.C74_publisher_order` | lean/Verif/Props/NetworkStream.lean:28 |
|  |  | `Wamp.Spec.Net.C74_accepted` | lean/Verif/Props/NetworkStream.lean:41 |
| C75 No request is lost | partial | `Wamp.Spec.Net.C75_requests_partial` | lean/Verif/Props/NetworkWait.lean:18 |
|  |  | `Wamp.Spec.Net.C75_unsubscribe_partial` | lean/Verif/Props/NetworkWait.lean:26 |
|  |  | `Wamp.Spec.Net.C75_unregister_partial` | lean/Verif/Props/NetworkWait.lean:32 |
|  |  | `Wamp.Spec.Net.C75_nothing_waits_partial` | lean/Verif/Props/NetworkWait.lean:38 |
|  |  | `Wamp.Spec.Net.C75_fails_unsubscribe_not_held` | lean/Verif/Props/NetworkWait.lean:149 |
|  |  | `Wamp.Spec.Net.C75_fails_unregister_not_held` | lean/Verif/Props/NetworkWait.lean:158 |
| C76 A session speaks the client's half of the protocol | proved | `Wamp.WAMPSession.C76_send` | lean/Verif/Props/SessionGrammar.lean:25 |
|  |  | `Wamp.WAMPSession.C76_goodbye_abort` | lean/Verif/Props/SessionGrammar.lean:44 |
|  |  | `Wamp.WAMPSession.C76_receive_returns` | lean/Verif/Props/SessionGrammar.lean:51 |
|  |  | `Wamp.WAMPSession.C76_error_answers` | lean/Verif/Props/SessionGrammar.lean:62 |
| C77 A session's situation decides its behaviour | proved | `Wamp.WAMPSession.C77_situation_decides` | lean/Verif/Props/SessionGrammar.lean:163 |
|  |  | `Wamp.WAMPSession.C77_situation_shows` | lean/Verif/Props/SessionGrammar.lean:276 |
| C78 A RawSocket stream has one reading | proved | `Wamp.RawSocket.C78_round_trip` | lean/Verif/Props/RawSocketStream.lean:45 |
|  |  | `Wamp.RawSocket.C78_one_reading` | lean/Verif/Props/RawSocketStream.lean:56 |
|  |  | `Wamp.RawSocket.C78_nothing_lost` | lean/Verif/Props/RawSocketStream.lean:89 |
|  |  | `Wamp.RawSocket.C78_chunks` | lean/Verif/Props/RawSocketStream.lean:101 |
|  |  | `Wamp.RawSocket.C78_prefix` | lean/Verif/Props/RawSocketStream.lean:113 |
| C79 The broker is a table | proved | `Wamp.Broker.C79_broker_is_table` | lean/Verif/Props/BrokerTable.lean:150 |
| C80 The dealer is a table | proved | `Wamp.Dealer.C80_dealer_is_table` | lean/Verif/Props/DealerTable.lean:308 |
| C81 Bytes carry the protocol | proved | `Wamp.Spec.Net.C81_bytes_refine_messages` | lean/Verif/Props/ByteNet.lean:17 |
|  |  | `Wamp.Spec.Net.C81_router_reads` | lean/Verif/Props/ByteNet.lean:201 |
|  |  | `Wamp.Spec.Net.C81_client_never_rejects` | lean/Verif/Props/ByteNet.lean:176 |
|  |  | `Wamp.Spec.Net.C81_agreement` | lean/Verif/Props/ByteNet.lean:221 |
|  |  | `Wamp.Spec.Net.C81_event` | lean/Verif/Props/ByteContents.lean:32 |
|  |  | `Wamp.Spec.Net.C81_invocation` | lean/Verif/Props/ByteContents.lean:63 |
|  |  | `Wamp.Spec.Net.C81_result` | lean/Verif/Props/ByteContents.lean:79 |
|  |  | `Wamp.Spec.Net.json_dataSet` | lean/Verif/Props/ByteNet.lean:280 |
| C82 The network comes to rest | proved | `Wamp.Spec.Net.C82_comes_to_rest` | lean/Verif/Props/NetworkRest.lean:53 |
|  |  | `Wamp.Spec.Net.C82_progress` | lean/Verif/Props/NetworkRest.lean:62 |
|  |  | `Wamp.Spec.Net.C82_can_finish` | lean/Verif/Props/NetworkRest.lean:94 |
|  |  | `Wamp.Spec.Net.C82_calls_finish` | lean/Verif/Props/NetworkRest.lean:187 |
|  |  | `Wamp.Spec.Net.C82_calls_finish_or_lost` | lean/Verif/Props/NetworkRest.lean:196 |
|  |  | `Wamp.Spec.Net.C82_requests_finish` | lean/Verif/Props/NetworkRest.lean:203 |
| C83 A message's options are its own | partial | `Wamp.Sharing.C83_options_partial` | lean/Verif/Props/Sharing.lean:30 |
|  |  | `Wamp.Sharing.C83_messages_by_value_partial` | lean/Verif/Props/Sharing.lean:110 |
|  |  | `Wamp.Sharing.C83_own_dict` | lean/Verif/Props/Sharing.lean:131 |
|  |  | `Wamp.Sharing.C83_exact` | lean/Verif/Props/SharingExact.lean:143 |
|  |  | `Wamp.Sharing.C83_false` | lean/Verif/Props/Sharing.lean:213 |
|  |  | `Wamp.Sharing.C83_false_serializers` | lean/Verif/Props/Sharing.lean:221 |
| C84 A cryptosign client announces its own key | partial | `Wamp.Sharing.C84_announced_partial` | lean/Verif/Props/Sharing.lean:232 |
|  |  | `Wamp.Sharing.C84_own_key` | lean/Verif/Props/Sharing.lean:293 |
|  |  | `Wamp.Sharing.C84_false` | lean/Verif/Props/Sharing.lean:302 |
| C85 A client that is not let in is told so | proved | `Wamp.C85_anonymous` | lean/Verif/Props/Refused.lean:69 |
|  |  | `Wamp.C85_ticket` | lean/Verif/Props/Refused.lean:80 |
|  |  | `Wamp.C85_wampcra_refused` | lean/Verif/Props/Refused.lean:97 |
|  |  | `Wamp.C85_wampcra_wrong_secret` | lean/Verif/Props/Refused.lean:108 |
|  |  | `Wamp.C85_cryptosign_refused` | lean/Verif/Props/Refused.lean:131 |
|  |  | `Wamp.C85_cryptosign_wrong_key` | lean/Verif/Props/Refused.lean:154 |
| C86 A router addresses only those who are connected | partial | `Wamp.Broker.C86_broker` | lean/Verif/Props/Departed.lean:24 |
|  |  | `Wamp.Dealer.C86_dealer_partial` | lean/Verif/Props/Departed.lean:163 |
|  |  | `Wamp.Dealer.C86_invocation_partial` | lean/Verif/Props/Departed.lean:232 |
|  |  | `Wamp.Dealer.C86_nobody_left_partial` | lean/Verif/Props/Departed.lean:242 |
|  |  | `Wamp.Dealer.C86_fails_when_caller_leaves` | lean/Verif/Props/Departed.lean:292 |
|  |  | `Wamp.Dealer.C86_fails_to_stranger` | lean/Verif/Props/Departed.lean:301 |
|  |  | `Wamp.Dealer.C86_fails_for_stranger` | lean/Verif/Props/Departed.lean:307 |
|  |  | `Wamp.Dealer.C86_exact` | lean/Verif/Props/DealerExact.lean:125 |
| C87 A router keeps nothing about those who left | partial | `Wamp.Broker.C87_broker` | lean/Verif/Props/Departed.lean:85 |
|  |  | `Wamp.Broker.C87_broker_empty` | lean/Verif/Props/Departed.lean:131 |
|  |  | `Wamp.Dealer.C87_dealer_partial` | lean/Verif/Props/Departed.lean:318 |
|  |  | `Wamp.Dealer.C87_dealer_empty_partial` | lean/Verif/Props/Departed.lean:438 |
|  |  | `Wamp.Dealer.C87_fails_for_pending_calls` | lean/Verif/Props/Departed.lean:488 |
|  |  | `Wamp.Dealer.C87_fails_after_error` | lean/Verif/Props/Departed.lean:495 |
|  |  | `Wamp.Dealer.C87_exact` | lean/Verif/Props/DealerExact.lean:185 |
| C88 The three serializers carry every message that fits them | proved | `Wamp.Spec.C88_restores` | lean/Verif/Props/Formats.lean:16 |
|  |  | `Wamp.Spec.C88_messages` | lean/Verif/Props/Formats.lean:27 |
|  |  | `Wamp.Spec.C88_payloads` | lean/Verif/Props/Formats.lean:35 |
| C89 Clients with different serializers understand each other | proved | `Wamp.Spec.Net.C89_formats_refine_messages` | lean/Verif/Props/Formats.lean:139 |
|  |  | `Wamp.Spec.Net.C89_router_reads` | lean/Verif/Props/Formats.lean:144 |
|  |  | `Wamp.Spec.Net.C89_client_never_rejects` | lean/Verif/Props/Formats.lean:151 |
|  |  | `Wamp.Spec.Net.C89_agreement` | lean/Verif/Props/Formats.lean:159 |
|  |  | `Wamp.Spec.Net.C89_contents` | lean/Verif/Props/ByteContents.lean:110 |
| C90 What a serializer writes is what the receiver reads | partial | `Wamp.Spec.C90_writes_truly_partial` | lean/Verif/Props/Formats.lean:239 |
|  |  | `Wamp.Spec.C90_writes_truly_false` | lean/Verif/Props/Formats.lean:220 |
|  |  | `Wamp.Spec.C90_msgpack_unreadable` | lean/Verif/Props/Formats.lean:227 |
|  |  | `Wamp.Spec.C90_json_loses_entry` | lean/Verif/Props/Formats.lean:232 |
|  |  | `Wamp.Spec.C90_json` | lean/Verif/Props/Arrives.lean:95 |
|  |  | `Wamp.Spec.C90_msgpack` | lean/Verif/Props/Arrives.lean:115 |
|  |  | `Wamp.Spec.C90_cbor` | lean/Verif/Props/Arrives.lean:129 |
|  |  | `Wamp.Spec.C90_exact` | lean/Verif/Props/Arrives.lean:141 |
| C91 Data that holds more than one message is refused | partial | `Wamp.Spec.C91_one_message_partial` | lean/Verif/Props/Formats.lean:330 |
|  |  | `Wamp.Spec.C91_one_message_false` | lean/Verif/Props/Formats.lean:278 |
|  |  | `Wamp.Spec.C91_json` | lean/Verif/Props/Formats.lean:290 |
|  |  | `Wamp.Spec.C91_msgpack` | lean/Verif/Props/Formats.lean:307 |
|  |  | `Wamp.Spec.C91_cbor` | lean/Verif/Props/Formats.lean:320 |
| C92 A message cut short is refused | proved | `Wamp.Spec.C92_truncated` | lean/Verif/Props/Formats.lean:357 |
| C93 What a ValueError says of a message is so | proved | `Wamp.C93_entries_true` | lean/Verif/Props/WireErrors.lean:18 |
|  |  | `Wamp.C93_some_entry` | lean/Verif/Props/WireErrors.lean:23 |
|  |  | `Wamp.C93_wrong_length` | lean/Verif/Props/WireErrors.lean:45 |
| C94 An answer to one WAMP-CRA challenge is of no use for another | proved | `Wamp.C94_challenge_contents` | lean/Verif/Props/Challenge.lean:38 |
|  |  | `Wamp.C94_challenges_differ` | lean/Verif/Props/Challenge.lean:46 |
|  |  | `Wamp.Acceptor.C94_challenge_sent` | lean/Verif/Props/Challenge.lean:73 |
|  |  | `Wamp.Acceptor.C94_no_replay` | lean/Verif/Props/Challenge.lean:108 |
| C95 Login over JSON, MessagePack and CBOR | proved | `Wamp.C95_no_authenticator` | lean/Verif/Props/HandshakeFormats.lean:117 |
|  |  | `Wamp.C95_anonymous` | lean/Verif/Props/HandshakeFormats.lean:127 |
|  |  | `Wamp.C95_ticket` | lean/Verif/Props/HandshakeFormats.lean:139 |
|  |  | `Wamp.C95_wampcra` | lean/Verif/Props/HandshakeFormats.lean:154 |
|  |  | `Wamp.C95_cryptosign` | lean/Verif/Props/HandshakeFormats.lean:170 |
| C96 Keys, challenges and signatures are spelled as RFC 4648 says | proved | `Wamp.C96_hex_text` | lean/Verif/Props/Spelling.lean:17 |
|  |  | `Wamp.C96_hex_read` | lean/Verif/Props/Spelling.lean:28 |
|  |  | `Wamp.C96_base64_text` | lean/Verif/Props/Spelling.lean:53 |
|  |  | `Wamp.C96_wampcra_signature` | lean/Verif/Props/Spelling.lean:62 |
|  |  | `Wamp.C96_derived_key` | lean/Verif/Props/Spelling.lean:67 |
|  |  | `Wamp.C96_cryptosign_texts` | lean/Verif/Props/Spelling.lean:83 |
|  |  | `Wamp.C96_cryptosign_signature` | lean/Verif/Props/Spelling.lean:89 |
| C97 One text answers a challenge | partial | `Wamp.Acceptor.C97_wampcra_text_partial` | lean/Verif/Props/Spelling.lean:195 |
|  |  | `Wamp.Acceptor.C97_cryptosign_text_partial` | lean/Verif/Props/Spelling.lean:235 |
|  |  | `Wamp.Acceptor.C97_exact` | lean/Verif/Props/Spelling.lean:213 |
|  |  | `Wamp.Acceptor.C97_one_text_false` | lean/Verif/Props/Spelling.lean:174 |
|  |  | `Wamp.C97_foreign_character` | lean/Verif/Props/Spelling.lean:145 |
|  |  | `Wamp.C97_appended_text` | lean/Verif/Props/Spelling.lean:159 |
| C98 What the sender of a bad message is told, word for word | proved | `Wamp.C98_to_message` | lean/Verif/Props/Complaints.lean:43 |
|  |  | `Wamp.C98_parse_own` | lean/Verif/Props/Complaints.lean:110 |
|  |  | `Wamp.C98_parse_foreign` | lean/Verif/Props/Complaints.lean:124 |
|  |  | `Wamp.C98_every_class` | lean/Verif/Props/Complaints.lean:132 |
| C99 A call sent in parts is one call | partial | `Wamp.Dealer.C99_parts_partial` | lean/Verif/Props/Progressive.lean:51 |
|  |  | `Wamp.Dealer.C99_answer_partial` | lean/Verif/Props/Progressive.lean:66 |
|  |  | `Wamp.Dealer.C99_last_part_false` | lean/Verif/Props/Progressive.lean:96 |
|  |  | `Wamp.Dealer.C99_second_answer_lost` | lean/Verif/Props/Progressive.lean:103 |

## Modules

| module | about |
|---|---|
| lean/Verif/Conformance/Broker.lean | The package's own tests of the broker, run on the model — `tests/broker_test.py` |
| lean/Verif/Conformance/Crypto.lean | A concrete instance of the external primitives |
| lean/Verif/Conformance/Dealer.lean | The package's own tests of the dealer, run on the model — `tests/dealer_test.py` |
| lean/Verif/Conformance/Handshake.lean | The package's own tests of serializers, authentication and handshakes, run on the model |
| lean/Verif/Conformance/Messages.lean | The project's tests of the message classes, as checks of the model |
| lean/Verif/Conformance/Session.lean | The package's own tests of the session, run on the model — `tests/test_session.py` |
| lean/Verif/Model/Acceptor.lean | Server side of the handshake — `wampproto/acceptor.py` |
| lean/Verif/Model/Auth.lean | Authentication — `wampproto/auth/*.py` |
| lean/Verif/Model/Broker.lean | Broker — `wampproto/broker.py` |
| lean/Verif/Model/Bytes.lean | Bytes — what the binary codecs share |
| lean/Verif/Model/Cbor.lean | The codec of `CBORSerializer` — `cbor2.dumps` / `cbor2.loads` |
| lean/Verif/Model/Dealer.lean | Dealer — `wampproto/dealer.py` |
| lean/Verif/Model/Dict.lean | Insertion-ordered dictionaries |
| lean/Verif/Model/Encoding.lean | Texts as bytes |
| lean/Verif/Model/Float.lean | Doubles and their decimal texts |
| lean/Verif/Model/Hmac.lean | HMAC and PBKDF2 over a hash function |
| lean/Verif/Model/Idgen.lean | Id generation — `wampproto/idgen.py` |
| lean/Verif/Model/Joiner.lean | Client side of the handshake — `wampproto/joiner.py` |
| lean/Verif/Model/Json.lean | The codec of `JSONSerializer` — `json.dumps` / `json.loads` |
| lean/Verif/Model/Legacy.lean | Helpers no message class calls, texts of errors — `wampproto/messages/util.py:29-83`, `wampproto/exception.py`, |
| lean/Verif/Model/Messages.lean | Messages — `wampproto/messages/*.py`, `wampproto/serializers/serializer.py` |
| lean/Verif/Model/MsgPack.lean | The codec of `MsgPackSerializer` — `msgpack.dumps` / `msgpack.loads` |
| lean/Verif/Model/Py.lean | Python values and exceptions |
| lean/Verif/Model/RawSocket.lean | RawSocket framing — `wampproto/transports/rawsocket.py` |
| lean/Verif/Model/Serializer.lean | Serializers — `wampproto/serializers/{serializer,json,cbor,msgpack,payload}.py` |
| lean/Verif/Model/Session.lean | Client session — `wampproto/session.py` |
| lean/Verif/Model/Sharing.lean | Dict objects held by more than one Python object |
| lean/Verif/Model/Types.lean | Shared types — `wampproto/types.py` |
| lean/Verif/Model/Util.lean | Field validation — `wampproto/messages/util.py`, `validation_spec.py` |
| lean/Verif/Proofs/AcceptorInv.lean | The acceptor's state as a function of the history |
| lean/Verif/Proofs/Arrives.lean | What the receiver reads, for any value a serializer accepts |
| lean/Verif/Proofs/Base64Read.lean | What `base64.b64decode` reads, exactly |
| lean/Verif/Proofs/BrokerIds.lean | Broker ids while fewer than 2^53 have been drawn |
| lean/Verif/Proofs/BrokerInv.lean | Broker invariant |
| lean/Verif/Proofs/BrokerRel.lean | The broker's state against the observed trace |
| lean/Verif/Proofs/BrokerView.lean | Known sessions and held subscriptions, one call at a time |
| lean/Verif/Proofs/ByteNet.lean | Helper lemmas about the network on bytes |
| lean/Verif/Proofs/Bytes.lean | Reading back what was written: numbers, text, items in a row |
| lean/Verif/Proofs/Cbor.lean | `cbor2.loads` restores what `cbor2.dumps` wrote |
| lean/Verif/Proofs/Complaints.lean | The texts of field validation are those of `Spec/Complaints.lean`. |
| lean/Verif/Proofs/Conforms.lean | What the three codecs write is a way to write the value |
| lean/Verif/Proofs/Contents.lean | The routers work on messages without contents, and put the contents in at the end |
| lean/Verif/Proofs/DealerInv.lean | Dealer invariant: registrations |
| lean/Verif/Proofs/DealerRel.lean | The dealer's state against the observed trace |
| lean/Verif/Proofs/DealerView.lean | The dealer follows the view |
| lean/Verif/Proofs/DetailsOk.lean | What `Hello.parse` and `Welcome.parse` accept and return. |
| lean/Verif/Proofs/DictLemmas.lean | Lemmas about insertion-ordered dicts |
| lean/Verif/Proofs/Encoding.lean | Hex and base64 round trips |
| lean/Verif/Proofs/Encodings.lean | Texts as bytes: every encoding is recognised and read back |
| lean/Verif/Proofs/ErrorsTrue.lean | What the entries of a `ValueError` of field validation say is so. |
| lean/Verif/Proofs/Float.lean | Rounding to doubles |
| lean/Verif/Proofs/Formats.lean | Values that fit |
| lean/Verif/Proofs/Hmac.lean | HMAC: keys taken for one, and where equal MACs come from |
| lean/Verif/Proofs/JoinerInv.lean | The joiner's state as a function of the history |
| lean/Verif/Proofs/Json.lean | `json.loads` restores what `json.dumps` wrote |
| lean/Verif/Proofs/KeepsType.lean | What was written as WELCOME, ABORT or CHALLENGE is not read as something else |
| lean/Verif/Proofs/Lists.lean | Lists grown at the end |
| lean/Verif/Proofs/LoginEnds.lean | Every login comes to an end |
| lean/Verif/Proofs/LoginSucceeds.lean | Who has the right credentials gets in |
| lean/Verif/Proofs/MsgPack.lean | `msgpack.loads` restores what `msgpack.dumps` wrote |
| lean/Verif/Proofs/NetBase.lean | The network: who is connected, what the router puts onto the channels |
| lean/Verif/Proofs/NetConn.lean | One client and its channels |
| lean/Verif/Proofs/NetLive.lean | The network: no call is lost |
| lean/Verif/Proofs/NetLost.lean | The network: a call that is nowhere stays unanswered |
| lean/Verif/Proofs/NetOnce.lean | The network: invocations, and one answer per call |
| lean/Verif/Proofs/NetPub.lean | The network: subscriptions and publications |
| lean/Verif/Proofs/NetRest.lean | Helper lemmas: the network comes to rest |
| lean/Verif/Proofs/NetRpc.lean | The network: registrations and calls |
| lean/Verif/Proofs/NetStory.lean | The network: where answers come from |
| lean/Verif/Proofs/NetStream.lean | The stream of events of each client |
| lean/Verif/Proofs/NetUnanswered.lean | The network: requests nobody answers |
| lean/Verif/Proofs/NetWait.lean | The network: no request is lost |
| lean/Verif/Proofs/Numbers.lean | Numerals and the doubles they are read as |
| lean/Verif/Proofs/OneReading.lean | A number is read in one way |
| lean/Verif/Proofs/ParseOk.lean | Generated by `tools/gen_parse_lemmas.py`: what each `parse` accepts and returns. |
| lean/Verif/Proofs/Refuses.lean | What the serializers write, fits |
| lean/Verif/Proofs/Renaming.lean | Renaming commutes with everything the broker does |
| lean/Verif/Proofs/RenamingDealer.lean | Renaming commutes with everything the dealer does |
| lean/Verif/Proofs/Rfc4648.lean | Hex and base64 of the model are those of RFC 4648 |
| lean/Verif/Proofs/Room.lean | Helper lemmas about the room a value takes |
| lean/Verif/Proofs/RoomNet.lean | Helper lemmas: what the router may add |
| lean/Verif/Proofs/SessionStep.lean | One step of the client session, seen through the specification vocabulary |
| lean/Verif/Proofs/SessionView.lean | The client session's data is a function of the observed history |
| lean/Verif/Proofs/Sharing.lean | What the operations on shared dict objects do to the store |
| lean/Verif/Proofs/Shortest.lean | The shortest decimal that reads back |
| lean/Verif/Proofs/Slots.lean | `call_to_invocation_id` against the observed trace |
| lean/Verif/Proofs/SpecRun.lean | The validator tables implement the grammar rows. |
| lean/Verif/Proofs/SpellingsCbor.lean | `cbor2.loads` reads every way to write a value |
| lean/Verif/Proofs/SpellingsJson.lean | `json.loads` reads every way to write a value |
| lean/Verif/Proofs/SpellingsMsgPack.lean | `msgpack.loads` reads every way to write a value |
| lean/Verif/Proofs/Stack.lean | The stack does what the network of sessions does |
| lean/Verif/Proofs/Strangers.lean | Strangers do not get in |
| lean/Verif/Proofs/ToMessage.lean | `to_message` in terms of the grammar rows. |
| lean/Verif/Proofs/Truncated.lean | More data after what a reader read changes nothing: a reader reads no prefix of what it reads |
| lean/Verif/Proofs/TruncatedJson.lean | More text after what `json.loads` read changes nothing, unless it continues a number |
| lean/Verif/Proofs/WireLemmas.lean | Helper lemmas about validators, `validate_message` and `parse`. |
| lean/Verif/Props/Acceptor.lean | The server side of the handshake, C53–C60 and the acceptor's half of C65 |
| lean/Verif/Props/AcceptorExact.lean | What an acceptor remembers (C113, and the exact conditions of C55 and C57) |
| lean/Verif/Props/Answers.lean | C107: which challenges a client answers, and how |
| lean/Verif/Props/Arrives.lean | What the receiver reads (C90) |
| lean/Verif/Props/AsNew.lean | A router everybody has left: C118 |
| lean/Verif/Props/Asked.lean | C139: nobody gets what they have not asked for |
| lean/Verif/Props/Auth.lean | Signing and verifying challenges, C64–C66 |
| lean/Verif/Props/Broker.lean | Broker properties C19–C29 |
| lean/Verif/Props/BrokerEffects.lean | C22–C25: what a call changes for later publishes |
| lean/Verif/Props/BrokerTable.lean | The broker is a table: C79 |
| lean/Verif/Props/BrokerWrap.lean | C19/C24/C25 beyond 2^53 ids |
| lean/Verif/Props/Bystanders.lean | C122: those who are not let in make no difference to those who are |
| lean/Verif/Props/ByteContents.lean | C81, C89: what the applications of a network on bytes are handed |
| lean/Verif/Props/ByteNet.lean | C81: the network on bytes is the network on messages |
| lean/Verif/Props/Challenge.lean | C94 — a WAMP-CRA answer is good for one challenge |
| lean/Verif/Props/Channels.lean | C129: between a member and the router nothing is lost, repeated or reordered |
| lean/Verif/Props/Complaints.lean | C98 — what the sender of a bad message is told, word for word |
| lean/Verif/Props/Connection.lean | C102: a RawSocket connection |
| lean/Verif/Props/Contents.lean | C109: the routers pass contents on without looking at them |
| lean/Verif/Props/Dealer.lean | Dealer properties C30–C45 |
| lean/Verif/Props/DealerEffects.lean | C30, C35, C41, C42: what a call changes for later calls |
| lean/Verif/Props/DealerExact.lean | C34, C43, C86, C87 exactly: who can end a call with an ERROR, what the departure of a session means for pending calls, when the |
| lean/Verif/Props/DealerPayload.lean | Binary payloads at the dealer: C73 |
| lean/Verif/Props/DealerTable.lean | The dealer is a table: C80 |
| lean/Verif/Props/DealerWrap.lean | C38 beyond 2^53 ids |
| lean/Verif/Props/Departed.lean | Sessions that have left: C86, C87 |
| lean/Verif/Props/Flood.lean | C138: nobody is flooded |
| lean/Verif/Props/Formats.lean | C88–C92: the three serialization formats themselves |
| lean/Verif/Props/Handshake.lean | Joiner against acceptor, C63 |
| lean/Verif/Props/HandshakeFormats.lean | C95 — login with each of the three serializers |
| lean/Verif/Props/Idgen.lean | Id generation properties C17, C18 |
| lean/Verif/Props/Joiner.lean | The client side of the handshake, C61 and C62 |
| lean/Verif/Props/LastWord.lean | C141: the answer is the last word |
| lean/Verif/Props/Legacy.lean | C69, C70 — validation helpers, text of an application error |
| lean/Verif/Props/LoginEnds.lean | C123: every login comes to an end |
| lean/Verif/Props/LoginSucceeds.lean | C124: who has the credentials gets in |
| lean/Verif/Props/Members.lean | C125: among strangers, the members are a network of sessions; what a member is told comes from a member |
| lean/Verif/Props/Neighbours.lean | C133: two applications share a network |
| lean/Verif/Props/Network.lean | Clients and router together: C67 |
| lean/Verif/Props/NetworkRest.lean | C82: the network comes to rest |
| lean/Verif/Props/NetworkRpc.lean | Clients and router together: C68 |
| lean/Verif/Props/NetworkStory.lean | Clients and router together: C71, C72, C115 |
| lean/Verif/Props/NetworkStream.lean | Clients and router together: C74 |
| lean/Verif/Props/NetworkUnanswered.lean | Clients and router together: C119, why a request stays unanswered |
| lean/Verif/Props/NetworkWait.lean | Clients and router together: C75, requests other than CALL |
| lean/Verif/Props/Newcomers.lean | C134: newcomers cannot tell that anybody was there |
| lean/Verif/Props/Numbers.lean | C100: numbers with a fraction |
| lean/Verif/Props/Order.lean | C131: only the order at the router and the order at each client make a difference |
| lean/Verif/Props/Overheard.lean | C142: nobody overhears |
| lean/Verif/Props/OverheardBytes.lean | C142 on bytes: what applications are handed |
| lean/Verif/Props/Payload.lean | Serializers and payload encoding, C10–C12 |
| lean/Verif/Props/Present.lean | Only the present matters: C128 |
| lean/Verif/Props/PresentExact.lean | Exactly which dealers cannot be told apart: C128 |
| lean/Verif/Props/Progressive.lean | C99 — a call sent in parts |
| lean/Verif/Props/RawSocket.lean | RawSocket properties C13–C16 |
| lean/Verif/Props/RawSocketStream.lean | RawSocket streams: C78 |
| lean/Verif/Props/Refused.lean | A client that is not let in, C85 |
| lean/Verif/Props/RefusedFormats.lean | C101 — a login that is refused, with each of the three serializers |
| lean/Verif/Props/Renaming.lean | C108 and C110: the routers do not know what a name means, and do not say who is behind a message |
| lean/Verif/Props/Room.lean | C137: what is short enough when it is sent is short enough for everybody |
| lean/Verif/Props/Secrecy.lean | C111, C112: what a handshake tells of the secret |
| lean/Verif/Props/Secret.lean | C105 — only who knows the secret answers a WAMP-CRA challenge |
| lean/Verif/Props/Server.lean | C116 — a server remembers one HELLO |
| lean/Verif/Props/Session.lean | Client session properties C46–C52 |
| lean/Verif/Props/SessionGrammar.lean | What a session sends and takes: C76, C77, and C46 exactly |
| lean/Verif/Props/SessionIds.lean | A session goes by ids, and ids are only names (C114) |
| lean/Verif/Props/Sharing.lean | Dict objects held by more than one Python object, C83–C84 |
| lean/Verif/Props/SharingExact.lean | What a message answers when its dict is shared, exactly: C83 |
| lean/Verif/Props/Shortest.lean | C106: a double is written with as few digits as possible |
| lean/Verif/Props/Slots.lean | Exactly when answers and continuations work (C32, C37, C40, C45) |
| lean/Verif/Props/Spelling.lean | C96, C97 — how keys, challenges and signatures are spelled |
| lean/Verif/Props/Spellings.lean | C103, C104: other programs' JSON, MessagePack and CBOR |
| lean/Verif/Props/Stack.lean | C120: the whole stack does what the network of sessions does |
| lean/Verif/Props/StackLost.lean | C130: who still waits when everything has come to rest |
| lean/Verif/Props/StackRest.lean | C127: the whole stack comes to rest |
| lean/Verif/Props/Strangers.lean | C121: nobody the authenticator has not approved of reaches the broker or the dealer |
| lean/Verif/Props/Tally.lean | C140: never more answers than requests |
| lean/Verif/Props/TallyBytes.lean | C140, C141 on bytes: what applications are handed |
| lean/Verif/Props/Tenants.lean | Two applications at one router (C117) |
| lean/Verif/Props/Undone.lean | What is undone leaves no trace: C136 |
| lean/Verif/Props/Unrelated.lean | Unrelated requests may be handled in either order: C132 |
| lean/Verif/Props/Unseen.lean | C126: who is not let in learns nothing about the others |
| lean/Verif/Props/Visitors.lean | Visitors of a broker: C135 |
| lean/Verif/Props/Wire.lean | Wire format properties C01–C09 |
| lean/Verif/Props/WireErrors.lean | C93 — what a ValueError says of a message is so |
| lean/Verif/Spec/Acceptor.lean | Specification vocabulary for the handshake |
| lean/Verif/Spec/Answers.lean | What a CHALLENGE asks of a client |
| lean/Verif/Spec/Arrives.lean | What the receiver reads |
| lean/Verif/Spec/AsNew.lean | As good as new |
| lean/Verif/Spec/Asked.lean | What a client has asked for |
| lean/Verif/Spec/Broker.lean | Specification vocabulary for the broker |
| lean/Verif/Spec/BrokerTable.lean | A broker as one table |
| lean/Verif/Spec/ByteNet.lean | The same network, on bytes |
| lean/Verif/Spec/Channels.lean | What a member and the router have said to each other |
| lean/Verif/Spec/Complaints.lean | What the sender of a bad message is told |
| lean/Verif/Spec/Connection.lean | A RawSocket connection |
| lean/Verif/Spec/Contents.lean | Messages without their contents |
| lean/Verif/Spec/Dealer.lean | Specification vocabulary for the dealer |
| lean/Verif/Spec/DealerTable.lean | A dealer as four lists |
| lean/Verif/Spec/Effects.lean | What would happen: the result of one more call |
| lean/Verif/Spec/Encoding.lean | Base16 and Base64 as RFC 4648 defines them |
| lean/Verif/Spec/Encodings.lean | The encodings of a text |
| lean/Verif/Spec/Flood.lean | How much a client can get |
| lean/Verif/Spec/Formats.lean | Which values the three formats can carry |
| lean/Verif/Spec/Frames.lean | A RawSocket stream |
| lean/Verif/Spec/Handshake.lean | A handshake between a joiner and an acceptor, over bytes |
| lean/Verif/Spec/Hmac.lean | Vocabulary for C105: collisions, and keys HMAC does not tell apart |
| lean/Verif/Spec/Joiner.lean | Specification vocabulary for the client side of the handshake |
| lean/Verif/Spec/LoginEnds.lean | The end of a login |
| lean/Verif/Spec/Members.lean | Members among strangers |
| lean/Verif/Spec/Neighbours.lean | Two applications in one network |
| lean/Verif/Spec/Network.lean | Clients and a router connected by FIFO channels |
| lean/Verif/Spec/Newcomers.lean | When everybody has left |
| lean/Verif/Spec/Numbers.lean | Numbers in JSON texts |
| lean/Verif/Spec/Order.lean | What happens at the router, and what happens at each client |
| lean/Verif/Spec/Overheard.lean | Where contents come from |
| lean/Verif/Spec/Present.lean | Only the present matters |
| lean/Verif/Spec/Renaming.lean | Other names for sessions, topics and procedures |
| lean/Verif/Spec/Rest.lean | Coming to rest |
| lean/Verif/Spec/Roles.lean | Announced roles |
| lean/Verif/Spec/Room.lean | How much room a message takes |
| lean/Verif/Spec/Secrecy.lean | Two worlds that differ in a secret |
| lean/Verif/Spec/Server.lean | A server, described by the situation it is in |
| lean/Verif/Spec/Session.lean | Specification vocabulary for the client session |
| lean/Verif/Spec/SessionIds.lean | Messages as a session sees them |
| lean/Verif/Spec/Slots.lean | Which invocation a request id stands for |
| lean/Verif/Spec/Spellings.lean | The ways to write a value in JSON, MessagePack and CBOR |
| lean/Verif/Spec/Stack.lean | The whole stack |
| lean/Verif/Spec/StackLost.lean | How requests get lost at the router |
| lean/Verif/Spec/StackRest.lean | What is left to do |
| lean/Verif/Spec/Story.lean | What has happened to a call |
| lean/Verif/Spec/Strangers.lean | Strangers |
| lean/Verif/Spec/Stream.lean | What a subscriber should see |
| lean/Verif/Spec/Tally.lean | Counting requests and answers |
| lean/Verif/Spec/Tenants.lean | Two applications at one router |
| lean/Verif/Spec/Unrelated.lean | Unrelated requests |
| lean/Verif/Spec/Visitors.lean | Visitors of a broker |
| lean/Verif/Spec/Wait.lean | Waiting for answers |
| lean/Verif/Spec/Wire.lean | Specification vocabulary for the wire format |
