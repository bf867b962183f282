#!/usr/bin/env python3
"""Writes /verif/properties.jsonl (one property per line). Pure text generation; runs nothing from /repo."""
import json
P = []
def p(title, statement, quantifier, why, anchors):
    P.append(dict(id="C%02d" % (len(P) + 1), title=title, statement=statement,
                  quantifier=quantifier, why_tests_cant=why, anchors=anchors))

M = "wampproto/messages/"
INF = "the value space (nested lists/dicts, arbitrary ids and strings) is infinite; tests sample a handful of literals"
HIST = "the claim ranges over every finite history of API calls by any number of sessions; tests replay a few short scripts"

# ---- wire format
p("Wire round trip", "For every message of each of the 24 message classes whose fields are valid (ids in 1..2**53, roles non-empty and allowed), deserialising the list produced by marshal() yields a message equal to the original, except that a message with kwargs but no args comes back with args == []. (Binary payload fields and ABORT args/kwargs are treated in C02/C03.)",
  "all messages of all classes, all field values", INF,
  [M+"*.py: marshal, parse", "wampproto/serializers/serializer.py: to_message"])
p("ABORT diagnostics survive the wire", "An ABORT built with args/kwargs (as the Acceptor builds it on authentication failure) delivers those args/kwargs to the peer that parses its marshalled form.",
  "all ABORT messages", INF + "; needs the exact set of ABORTs for which it holds", [M+"abort.py: Abort.marshal, Abort.parse", "wampproto/acceptor.py: receive_message"])
p("Binary payload survives the wire", "A CALL/INVOCATION/YIELD/RESULT built with a binary payload and a payload serializer delivers the payload and the serializer id to the peer that parses its marshalled form.",
  "all payload-bearing messages", INF, [M+"call.py", M+"invocation.py", M+"yield_.py", M+"result.py"])
p("Parse soundness", "Any message object returned by deserialising an arbitrary decoded value has every id field an integer in 1..2**53, every string field a string, every dict/list field a dict/list, and (HELLO/WELCOME) a non-empty roles dict whose keys are all allowed role names.",
  "all decoded Python values", INF, [M+"util.py: validate_*", "wampproto/serializers/serializer.py: to_message"])
p("Parse completeness", "to_message accepts a decoded value if and only if it matches the WAMP message grammar table (type code, required elements with their kinds, optional args/kwargs tail); nothing valid is refused and nothing else is let in.",
  "all decoded Python values", INF, [M+"util.py: validate_message, sanity_check", M+"*.py: VALIDATION_SPEC"])
p("Parse failure is a clean ValueError/TypeError", "Deserialising any decoded value that is not a valid message raises ValueError or TypeError and never any other exception class (no IndexError, KeyError, AttributeError escapes to the transport loop).",
  "all decoded Python values", INF, ["wampproto/serializers/serializer.py: to_message", M+"util.py: validate_message"])
p("Relay transparency", "For every accepted wire list of a class other than HELLO, WELCOME and ABORT, marshal() of the parsed message is exactly the same list, so a relay that parses and re-marshals never alters a message.",
  "all accepted wire lists", INF, [M+"*.py: parse, marshal"])
p("Dispatch by type code", "to_message returns an instance of the class whose type code equals element 0; an element 0 that is not one of the 24 codes, or not an integer, is rejected.",
  "all decoded Python values", INF, ["wampproto/serializers/serializer.py: to_message"])
p("Complete error report", "When field validation fails, the raised ValueError carries one entry for every offending field, in field order, and no entry for any field that is valid.",
  "all wire lists of right length and code", INF, [M+"util.py: validate_message"])
p("Serializer round trip", "For every value codec (json/cbor2/msgpack) that restores the marshalled list, serialize followed by deserialize returns the message (in the sense of C01); the session/joiner/acceptor byte-level entry points therefore behave as their message-level ones.",
  "all codecs satisfying the round-trip law on the values used, all messages", "quantifies over codecs and all messages", ["wampproto/serializers/json.py", "wampproto/serializers/cbor.py", "wampproto/serializers/msgpack.py"])
p("Payload encode/decode round trip", "deserialize_payload(id, serialize_payload(id, args, kwargs)) returns (args, kwargs) for JSON, CBOR and MsgPack whenever the codec round-trips the encoded list, except that args None with kwargs present comes back as []; with the NONE serializer a single bytes arg and no kwargs comes back as ([bytes], {}). Unknown serializer ids are rejected in both directions.",
  "all args/kwargs, all serializer ids", INF, ["wampproto/serializers/payload.py"])
p("Payload decoding rejects malformed payload values", "Decoding a payload value that is a list of more than two elements, or whose first element is not a list, or whose second is not a dict is rejected with ValueError/TypeError; every list accepted yields exactly its elements.",
  "all decoded payload values", INF, ["wampproto/serializers/payload.py: decode"])
# ---- rawsocket
p("RawSocket header round trip", "For every kind 0..255 and every length 0..2**24-1, MessageHeader.from_bytes(h.to_bytes()) has the same kind and length and to_bytes produces exactly 4 bytes; conversely every 4-byte string decodes to a header that re-encodes to the same 4 bytes.",
  "all kinds, all lengths, all 4-byte strings", "2**32 cases per direction", ["wampproto/transports/rawsocket.py: MessageHeader, int_to_bytes, bytes_to_int"])
p("RawSocket header never misreports a length", "to_bytes of a header whose length does not fit in 24 bits fails instead of producing a header announcing a different length.",
  "all integer lengths", "unbounded integers", ["wampproto/transports/rawsocket.py: int_to_bytes"])
p("RawSocket handshake round trip", "For every protocol nibble and every power-of-two size 2**9..2**24 the handshake decodes to the same protocol and size; for every other size to_bytes either fails or announces the largest power of two not above the size, never more than the peer asked for.",
  "all protocols and all integer sizes", "unbounded integers", ["wampproto/transports/rawsocket.py: send_handshake, receive_handshake"])
p("RawSocket handshake validation", "receive_handshake accepts exactly the 4-byte strings that start with the magic byte and whose two reserved bytes are both zero.",
  "all byte strings", "2**32 strings plus all wrong lengths", ["wampproto/transports/rawsocket.py: receive_handshake"])
# ---- idgen
p("Generated ids are valid", "Every id produced by SessionScopeIDGenerator.next(), after any number of draws, lies in 1..2**53, starts at 1 and increases by one until it wraps to 1.",
  "all numbers of draws", "2**53 draws before the interesting boundary", ["wampproto/idgen.py"])
p("Generated ids are unique within a period", "Any two draws fewer than 2**53 apart give different ids, and draws exactly 2**53 apart give the same id.",
  "all pairs of draws", "needs 2**53 draws", ["wampproto/idgen.py"])
# ---- broker
B = ["wampproto/broker.py: Broker"]
p("Exact event delivery", "After any history, a publish to topic t by a known session returns as recipients exactly the sessions that have subscribed to t and since then neither unsubscribed nor left, each once, in order of subscription; if there are none there is no event.",
  "all histories (in which no session is handed an id it already holds for another topic)", HIST, B)
p("Event carries the recipient's subscription id and the publisher's payload", "The event returned by publish carries the very subscription id that was returned to each recipient in its SUBSCRIBED reply, and the args and kwargs of the PUBLISH unchanged.",
  "all histories", HIST, B)
p("Subscription id identifies the topic", "At any moment all subscribers of one topic hold the same subscription id, and live subscriptions of different topics have different ids while fewer than 2**53 ids have been drawn.",
  "all histories", HIST, B)
p("Subscribe outcome", "SUBSCRIBE by a known session always succeeds with SUBSCRIBED for the same request id addressed to that session, which from then on receives what is published to the topic, after those who already did, while nobody else's deliveries change; SUBSCRIBE by an unknown session fails with ValueError and changes nothing.",
  "all histories", HIST, B)
p("Subscribe is idempotent", "Subscribing again to a topic already held returns the same id, does not cause duplicate delivery, and a single UNSUBSCRIBE ends it.",
  "all histories", HIST, B)
p("Unsubscribe outcome", "UNSUBSCRIBE(id) by session s succeeds (UNSUBSCRIBED, same request id, to s) exactly when s currently holds id; it then ends exactly that subscription of s, so that s no longer receives what is published to that topic and all other deliveries stay as they were; otherwise it fails with ValueError and changes nothing.",
  "all histories", HIST, B)
p("Session removal is complete and isolated", "remove_session(s) succeeds exactly for known sessions, ends all of s's subscriptions and no one else's, so that all other deliveries stay as they were; afterwards s is never a recipient until it is added and subscribes again.",
  "all histories", HIST, B)
p("has_subscription agrees with deliverability", "has_subscription(t) is True exactly when a publish to t would have at least one recipient, and no topic entry outlives its last subscriber.",
  "all histories", HIST, B)
p("Acknowledgement", "publish returns an ack exactly when options['acknowledge'] is truthy; the ack is PUBLISHED with the request id of the PUBLISH, addressed to the publisher, and with the same publication id as the event.",
  "all histories, all option dicts", HIST, B)
p("Publication ids are fresh", "Two publishes in one history return different publication ids (as long as fewer than 2**53 ids are drawn), and a publication id never equals a subscription id issued by the same broker.",
  "all histories shorter than 2**53", HIST, B)
p("Broker failures are atomic", "Whenever a broker call raises, it raises ValueError, and every later call behaves as if the failed call had not been made.",
  "all histories", HIST, B)
# ---- dealer
D = ["wampproto/dealer.py: Dealer"]
p("Exclusive registration", "At any moment at most one session holds a procedure; REGISTER of a free procedure by a known session yields REGISTERED for the same request id, and from then on CALLs of it go to that session under the replied id while other CALLs go where they went; of a taken one yields ERROR procedure_already_exists for that request and changes nothing; by an unknown session fails with ValueError and changes nothing.",
  "all histories that draw fewer than 2**53 ids", HIST, D)
p("Call routing", "CALL p is turned into an INVOCATION addressed to the session that currently holds p, carrying the registration id that session was given and the caller's args and kwargs; if nobody holds p the caller gets ERROR no_such_procedure for its request id and nothing changes.",
  "all histories that draw fewer than 2**53 ids", HIST, D)
p("Result routing", "A YIELD for a pending invocation by the callee it was sent to produces a RESULT addressed to the session that made the call, for that call's request id, with the callee's args and kwargs.",
  "all histories that draw fewer than 2**53 ids", HIST, D)
p("Yield authorisation", "A YIELD for an invocation id that is not pending, or by any session other than the callee the invocation was sent to, fails with ValueError and changes nothing.",
  "all histories that draw fewer than 2**53 ids", HIST, D)
p("Error authorisation", "An ERROR for an invocation from any session other than the callee the invocation was sent to is rejected.",
  "all histories that draw fewer than 2**53 ids", HIST, D)
p("Error routing", "An INVOCATION ERROR for a pending invocation becomes a CALL ERROR addressed to the session that made the call, for that call's request id, with uri, args, kwargs and details unchanged, and ends the call; for an unknown invocation, or for another message type, it fails with ValueError and changes nothing.",
  "all histories that draw fewer than 2**53 ids", HIST, D)
p("At most one final outcome", "Once an invocation has received its final RESULT or ERROR, every later YIELD or ERROR for that invocation id fails until the id is issued again; so a caller never receives two final outcomes for one invocation.",
  "all histories that draw fewer than 2**53 ids", HIST, D)
p("Every invocation can be answered", "Whenever the dealer emits an INVOCATION to a callee, an immediate final YIELD by that callee is accepted and routed to the caller.",
  "all histories that draw fewer than 2**53 ids", HIST, D)
p("Distinct concurrent invocations", "A non-progressive CALL is always given an invocation id different from that of every pending invocation, as long as fewer than 2**53 ids have been drawn.",
  "all histories that draw fewer than 2**53 ids", HIST, D)
p("Progressive results", "A RESULT is marked progress exactly when the YIELD was and the CALL asked for receive_progress, and exactly in that case the invocation stays pending; otherwise it is final.",
  "all histories, all option dicts", HIST, D)
p("Progressive call continuation", "A progressive CALL reusing the request id of a pending call of the same caller continues the same invocation: same invocation id and same callee.",
  "all histories that draw fewer than 2**53 ids", HIST, D)
p("Unregister outcome", "UNREGISTER(id) by s succeeds exactly when s currently holds registration id, frees exactly that procedure (CALLs of it are no longer routed, other CALLs go where they went), and otherwise fails with ValueError and changes nothing.",
  "all histories that draw fewer than 2**53 ids", HIST, D)
p("Dealer session removal", "remove_session(s) succeeds exactly for known sessions, frees every procedure s held and no other (CALLs that went elsewhere still go there); afterwards no CALL is routed to s until it registers again.",
  "all histories that draw fewer than 2**53 ids", HIST, D)
p("Departed callee's calls are settled", "After remove_session(callee), the calls pending on that callee are no longer pending (they cannot be completed any more and must be failed to the caller).",
  "all histories that draw fewer than 2**53 ids", HIST, D)
p("has_registration agrees with routing", "has_registration(p) is True exactly when a CALL to p would be routed to a callee.",
  "all histories that draw fewer than 2**53 ids", HIST, D)
p("Dealer failures are atomic", "Whenever a dealer call raises, it raises ValueError, and every later call behaves as if the failed call had not been made.",
  "all histories that draw fewer than 2**53 ids", HIST, D)
# ---- session
S = ["wampproto/session.py: WAMPSession"]
p("Replies match requests", "WAMPSession accepts RESULT/REGISTERED/UNREGISTERED/PUBLISHED/SUBSCRIBED/UNSUBSCRIBED/ERROR exactly when a request of the matching kind with that request id has been sent and not yet been answered; otherwise it raises ValueError and its state is unchanged.",
  "all histories of sends and receives", HIST, S)
p("Each request is answered at most once", "In any history the number of accepted replies for a (kind, request id) never exceeds the number of such requests sent.",
  "all histories of sends and receives", HIST, S)
p("Events and invocations need a live grant", "EVENT is accepted exactly when its subscription id was granted by an accepted SUBSCRIBED and not since withdrawn by an accepted UNSUBSCRIBED; likewise INVOCATION and registrations.",
  "all histories of sends and receives", HIST, S)
p("Yield only for received invocations", "send_message(YIELD) succeeds only for an invocation that was received and not yet answered; at most one YIELD is sent per received invocation; ERROR can be sent only for invocations.",
  "all histories of sends and receives", HIST, S)
p("Session supports progressive results", "While a call made with receive_progress is pending, every progressive RESULT for it is accepted, and a callee may send several progressive YIELDs for one invocation.",
  "all histories of sends and receives", HIST, S)
p("Session bookkeeping is independent per kind", "Sending or receiving a message of one kind never changes acceptance of replies to a request of another kind or of another request id.",
  "all histories of sends and receives", HIST, S)
p("Failed send leaves the session unchanged", "If send_message raises, the session's later behaviour is as if it had not been called.",
  "all histories, all codecs that may fail", HIST, S)
# ---- acceptor
A = ["wampproto/acceptor.py: Acceptor"]
p("WELCOME only after authentication", "If an authenticator is configured, a WELCOME is emitted only if the authenticator approved a request carrying the HELLO's realm, authid and authextra for the first offered auth method (and, for ticket, the presented ticket), and for challenge methods only in answer to an AUTHENTICATE following the CHALLENGE.",
  "all message sequences, all authenticator behaviours", "adversarial message sequences of any length", A)
p("WAMP-CRA WELCOME requires a valid response to this challenge", "With wampcra, WELCOME is emitted only if the AUTHENTICATE signature decodes to the HMAC of exactly the challenge sent in this handshake under the secret returned by the authenticator.",
  "all message sequences, all MAC functions", "adversarial message sequences of any length", A + ["wampproto/auth/wampcra.py"])
p("Cryptosign WELCOME requires a signature over this challenge", "With cryptosign, WELCOME is emitted only if the AUTHENTICATE carries a valid signature by the client's public key over the challenge sent in this handshake.",
  "all message sequences, all signature schemes", "adversarial message sequences of any length", A + ["wampproto/auth/cryptosign.py"])
p("At most one WELCOME, then closed", "In any message sequence at most one WELCOME is emitted; every message received afterwards raises ValueError and changes nothing.",
  "all message sequences", "sequences of any length", A)
p("Abort is terminal", "Once the acceptor has sent or received an ABORT it never emits a WELCOME or CHALLENGE, and is_aborted() is True.",
  "all message sequences", "sequences of any length", A)
p("Acceptor session details", "get_session_details() succeeds exactly after a WELCOME was emitted and then always returns that WELCOME's session id, authid and authrole and the realm of the HELLO it answers.",
  "all message sequences", "sequences of any length", A)
p("Acceptor protocol order", "AUTHENTICATE before a CHALLENGE and HELLO after a CHALLENGE are rejected with ValueError without changing the acceptor.",
  "all message sequences", "sequences of any length", A)
p("Acceptor always answers at byte level", "Acceptor.receive on any well-formed handshake message either returns a reply or raises ValueError, and reports completion exactly when the reply is WELCOME or ABORT.",
  "all messages in all states", "all messages in all states", A)
# ---- joiner, handshake
J = ["wampproto/joiner.py: Joiner"]
p("Joiner state machine", "WELCOME is accepted exactly when send_hello was called and no WELCOME has been accepted since; CHALLENGE is answered only when send_hello was called and nothing has been accepted or answered since; every other message raises; a rejected message changes nothing. get_session_details() returns the session id, authid and authrole of the WELCOME accepted last with the joiner's own realm, and raises if there is none.",
  "all call sequences", "sequences of any length", J)
p("Joiner reports aborts", "An ABORT in any state raises ApplicationError carrying its reason, args and kwargs and changes nothing.",
  "all call sequences", "sequences of any length", J + ["wampproto/exception.py"])
p("Handshake agreement", "For each auth method (no authenticator, anonymous, ticket, wampcra, cryptosign), for every realm, identity and credential the authenticator approves, running a Joiner against an Acceptor over the wire format ends with both sides established and get_session_details() equal on both sides.",
  "all realms, identities, credentials, authenticators, crypto primitives satisfying their laws", "quantifies over authenticators and credentials", A + J)
p("WAMP-CRA sign/verify", "verify_wampcra_signature(sig, challenge, key) is True exactly when base64-decoding sig gives HMAC-SHA256(key, challenge); sign_wampcra_challenge output always verifies, and a signature for one (key, challenge) verifies for another only if the MACs collide.",
  "all signatures, challenges, keys, all MAC functions", "infinite inputs", ["wampproto/auth/wampcra.py"])
p("Salted WAMP-CRA", "A client that receives salt, iterations and keylen signs with the base64 of the PBKDF2 key; zero iterations or keylen is refused; without salt the plain secret is the key. The acceptor announces salt, iterations and keylen when the authenticator returns a salted response, so such a client can log in.",
  "all challenges and authenticator responses", "infinite inputs", ["wampproto/auth/wampcra.py", "wampproto/auth/auth.py: WAMPCRASaltedResponse", "wampproto/acceptor.py"])
p("Cryptosign sign/verify", "sign_cryptosign_challenge of a hex challenge always verifies under the matching public key and embeds the challenge.",
  "all keys, challenges, all signature schemes satisfying the signing law", "infinite inputs", ["wampproto/auth/cryptosign.py"])
# ---- composition
p("Router and client agree on pub/sub", "For any number of WAMPSession clients connected to one router by FIFO channels, none of which starts a pub/sub request with the id of one it is still waiting for, under every interleaving of joins, leaves, sends, router steps and deliveries, no client ever rejects a message the broker sent it, the broker never rejects an UNSUBSCRIBE for a subscription the client has been granted and has not yet asked to end, and whenever nothing is on its way to a client, the client's granted subscriptions are exactly those it holds at the broker.",
  "all numbers of clients, all schedules of up to 2**53 steps", "all interleavings of any length", ["wampproto/broker.py", "wampproto/session.py"])
p("Router and client agree on RPC", "For any number of WAMPSession clients connected to one router by FIFO channels, none of which starts an RPC request with the id of one it is still waiting for or makes a progressive call, and no two of which are ever given the same session id, under every interleaving of joins, leaves, sends, router steps and deliveries, no client ever rejects a message the dealer sent it, the dealer never rejects a YIELD or ERROR a client's session allowed it to send, and whenever nothing is on its way to a client, the client's granted registrations are exactly those it holds at the dealer.",
  "all numbers of clients, all schedules of up to 2**53 steps", "all interleavings of any length", ["wampproto/dealer.py", "wampproto/session.py"])
# ---- helpers
p("Validation helpers accept exactly what they promise", "validate_realm_or_raise, validate_uri_or_raise and validate_procedure_or_raise accept exactly strings, validate_details_or_raise exactly dicts whose keys are all strings, validate_session_id_or_raise exactly the integers from 1 to 2**53; what is accepted is returned unchanged, everything else raises the helper's own exception class.",
  "all Python values", "infinite inputs", ["wampproto/messages/util.py: validate_*_or_raise"])
p("ApplicationError text loses nothing", "str(ApplicationError) starts with the error URI, contains the text of every positional argument and every key=value pair, and is the bare URI exactly when there are neither arguments nor keyword arguments. Likewise str() of an ERROR message, except that it is the bare URI exactly when its args and kwargs are both None.",
  "all URIs, arguments and keyword arguments", "infinite inputs", ["wampproto/exception.py: ApplicationError", "wampproto/messages/error.py: Error.__str__"])
# ---- composition: the fate of a call
p("Answers come from the right callee", "For any number of WAMPSession clients and one router connected by FIFO channels, where clients do not start an RPC request with the id of one they are waiting for, make no progressive calls, send ERROR only for invocations they have received and not answered, and session ids are not reused, under every interleaving: when a client is about to receive a RESULT, its latest CALL with that request id was handled by the router while some client held the procedure, that client received an INVOCATION with the CALL's arguments, payload and serializer id and answered it with a YIELD with the RESULT's arguments; a call ERROR likewise comes from that callee's ERROR with the same URI, arguments and details, or the procedure was held by nobody; between two answers to the same request id the caller has sent a new CALL with it.",
  "all numbers of clients, all schedules of up to 2**53 steps", "all interleavings of any length", ["wampproto/dealer.py", "wampproto/session.py"])
p("No call is lost", "In the same network, a CALL a client is waiting for is on its way to the router, or its answer is on its way back, or a connected client has the INVOCATION for it on its way, in hand, or just answered; so when no message is in a channel and no client has an invocation to answer, no client is waiting for a CALL.",
  "all numbers of clients, all schedules of up to 2**53 steps", "all interleavings of any length", ["wampproto/dealer.py", "wampproto/session.py"])
p("The dealer passes binary payloads on", "The INVOCATION built from a CALL carries its binary payload and payload serializer and says it is binary exactly if the CALL does; the RESULT built from a YIELD likewise.",
  "all histories, all CALLs and YIELDs", HIST, ["wampproto/dealer.py: Dealer.receive_message"])
p("Subscribers see every publication exactly once and in order", "For any number of WAMPSession clients and one router connected by FIFO channels, under every interleaving, the EVENTs a client has received since it joined, followed by those on their way to it, are one for one and in order the publications the router handled while the client was subscribed to their topic, each with the id of that subscription and the arguments of the PUBLISH; publication ids increase strictly along them; those of one publisher come in the order it published them; and every EVENT received was accepted by a session that uses fresh request ids.",
  "all numbers of clients, all schedules of up to 2**53 steps", "all interleavings of any length", ["wampproto/broker.py", "wampproto/session.py"])
p("No request is lost", "In the same network, a SUBSCRIBE, acknowledged PUBLISH, REGISTER, UNSUBSCRIBE or UNREGISTER a connected client is waiting for is on its way to the router, or its answer is on its way back; so a client whose channels are empty waits for none of them.",
  "all numbers of clients, all schedules of up to 2**53 steps", "all interleavings of any length", ["wampproto/broker.py", "wampproto/dealer.py", "wampproto/session.py"])
# ---- more on the session
p("A session speaks the client's half of the protocol", "WAMPSession.send_message passes to the serializer, and returns its result, exactly for CALL, REGISTER, UNREGISTER, PUBLISH, SUBSCRIBE, UNSUBSCRIBE and GOODBYE at any time, YIELD for an invocation received and not yet answered, and ERROR for invocations; every other message raises ValueError and changes nothing. GOODBYE and ABORT are always accepted and change nothing; a receive that returns, returns the received message; sending an invocation ERROR answers that invocation and no other.",
  "all histories, all messages, all serializers", HIST, ["wampproto/session.py: WAMPSession"])
p("A session's situation decides its behaviour", "(For a serializer that does not fail.) After two histories with the same outstanding requests, the same pending withdrawals, the same granted subscriptions and registrations and the same unanswered invocations, every further sequence of calls has the same outcomes; and two histories after which every further sequence of calls has the same outcomes agree in all of these.",
  "all pairs of histories, all continuations", "quantifies over pairs of unbounded histories and all continuations", ["wampproto/session.py: WAMPSession"])
p("A RawSocket stream has one reading", "Messages (a kind byte and a payload below 2**24 bytes) written one after the other, each as MessageHeader.to_bytes followed by the payload, are read back unchanged and in order by taking four bytes, MessageHeader.from_bytes, and as many bytes as it says; every byte stream has exactly one such reading; writing what was read gives the stream back; and how the stream is cut into pieces on arrival makes no difference.",
  "all lists of messages, all byte streams, all cuts", "unbounded streams and cuts", ["wampproto/transports/rawsocket.py: MessageHeader"])
p("The broker is a table", "For every sequence of up to 2**53 calls of add_session, remove_session, receive_message, receive_publish and has_subscription, a Broker answers exactly as a one-page reference broker made of the connected sessions, one list of (session, topic, subscription id) in order of subscription and the next id: same replies, recipients, events and acknowledgements, failure in the same calls, and every failure is ValueError.",
  "all sequences of up to 2**53 API calls", "sequences of unbounded length over unbounded topics and sessions", ["wampproto/broker.py: Broker"])
p("The dealer is a table", "For every sequence of up to 2**53 calls of add_session, remove_session, receive_message and has_registration, by clients behaving in any way, a Dealer answers exactly as a one-page reference dealer made of the connected sessions, the registrations held, the calls in progress, the request ids that stand for an invocation and the next id: same messages to the same recipients, and ValueError or KeyError in the same calls.",
  "all sequences of up to 2**53 API calls", "sequences of unbounded length over unbounded procedures, sessions and request ids", ["wampproto/dealer.py: Dealer"])
p("Bytes carry the protocol", "The same network, on bytes, each client with its own serializer, the router reading with the sender's serializer and writing with each recipient's: if the serializers restore the values messages are made of (for instance everything JSON can carry) and clients send valid messages, then under every interleaving the broker and the dealer get exactly the calls, and each application sees exactly the messages and failures, of the network that passes message objects as receivers see them. So the router can deserialize everything clients send; no client fails on data from the router, if clients use fresh request ids, make no progressive calls, send ERROR only for invocations they are working on, and session ids are not reused; and whenever nothing is on its way to a client, its granted subscriptions and registrations are those the broker and the dealer hold.",
  "all numbers of clients, all combinations of serializers, all schedules of up to 2**53 steps", "all interleavings of any length, all serializers", ["wampproto/session.py", "wampproto/serializers/serializer.py", "wampproto/broker.py", "wampproto/dealer.py", "wampproto/messages"])
p("The network comes to rest",
  "From any state of the network, if nobody asks for anything new, only boundedly many steps are possible: messages are "
  "routed and delivered, applications answer the invocations they have. However these are scheduled and whatever the "
  "applications answer, at most (2n+5)n further steps happen after n steps; the network is quiet exactly when no such step "
  "is possible, and it can always get there. If clients were well-behaved (and, for CALLs, nobody left), then at the end "
  "nobody is waiting for any request.",
  "all numbers of clients, all schedules, all continuations; the answered-requests part for schedules of up to 2**25 steps",
  "all interleavings of any length",
  ["wampproto/broker.py", "wampproto/dealer.py", "wampproto/session.py"])
# ---- objects
p("A message's options are its own",
  "What a CALL, INVOCATION, YIELD or RESULT answers for its options (details), and marshals, is what it was constructed with "
  "plus its own payload serializer, whatever is done later with other messages and client authenticators, also when the "
  "program passes the same dict object to several of them.",
  "all programs that create dicts, messages and cryptosign clients in any order, share dicts between them, and read or marshal the messages",
  "all sharing patterns and orders of any length",
  ["wampproto/messages/call.py: Call.options", "wampproto/messages/invocation.py: Invocation.details",
   "wampproto/messages/yield_.py: Yield.options", "wampproto/messages/result.py: Result.details"])
p("A cryptosign client announces its own key",
  "The pubkey entry of the auth_extra a CryptoSignAuthenticator announces is, for ever, the public key of its own private key.",
  "all programs as in the previous property, all private keys", "all sharing patterns and orders of any length",
  ["wampproto/auth/cryptosign.py: CryptoSignAuthenticator.__init__"])
p("A client that is not let in is told so",
  "When a Joiner with any of the four client authenticators meets an Acceptor whose authenticator refuses it, or whose secret "
  "gives another MAC, or it announces a key that does not open its signature, then, over bytes: the Acceptor reports the end "
  "of the handshake with an ABORT, the Joiner's receive raises ApplicationError wamp.error.authentication_failed, and neither "
  "side has session details. The arguments the server's authenticator gave do not reach the client.",
  "all serializers that carry the messages, all realms, roles, session ids, secrets, keys and nonces", "infinite inputs, two communicating state machines",
  ["wampproto/acceptor.py: Acceptor.receive", "wampproto/joiner.py: Joiner.receive"])
p("A router addresses only those who are connected",
  "Every reply, event, acknowledgement, invocation and result that Broker and Dealer ask to be sent is addressed to a session "
  "that has been added and not removed since.",
  "all histories of calls on a fresh broker or dealer of up to 2**53 calls, all next calls", HIST,
  ["wampproto/broker.py: Broker", "wampproto/dealer.py: Dealer"])
p("A router keeps nothing about those who left",
  "The dicts of Broker and Dealer have entries for the connected sessions, the topics and procedures somebody connected is "
  "subscribed to or has registered, and the calls in progress between connected sessions, and no others; so when everybody "
  "has left, all of them are empty.",
  "all histories of calls on a fresh broker or dealer of up to 2**53 calls", HIST,
  ["wampproto/broker.py: Broker", "wampproto/dealer.py: Dealer"])
p("The three serializers carry every message that fits them",
  "A message made of None, booleans, integers, strings, lists and dicts with string keys (and, with CBOR and MessagePack, bytes "
  "and floats) is serialized by JSONSerializer, CBORSerializer and MsgPackSerializer, and deserialized to the message the receiver "
  "is to see; the same values survive serialize_payload and deserialize_payload. The limits are those of the format: 64-bit "
  "integers and sizes below 2**32 for MessagePack, none for JSON and practically none for CBOR.",
  "all messages and payloads, values nested to any depth, all three formats", "infinite inputs, all nesting depths, byte-level encodings",
  ["wampproto/serializers/json.py: JSONSerializer", "wampproto/serializers/cbor.py: CBORSerializer",
   "wampproto/serializers/msgpack.py: MsgPackSerializer", "wampproto/serializers/payload.py: serialize_payload, deserialize_payload"])
p("Clients with different serializers understand each other",
  "In a network in which every client uses JSON, MessagePack or CBOR as it likes, the router reads all that clients send, no client "
  "fails on data from the router, events and results have the contents that were published and yielded, and clients and router "
  "agree on subscriptions and registrations, as if messages were handed over as objects.",
  "all schedules, all clients, all assignments of formats to clients, all messages made of values that all three formats carry",
  "all interleavings of any length, all values and nesting depths",
  ["wampproto/serializers/json.py: JSONSerializer", "wampproto/serializers/cbor.py: CBORSerializer",
   "wampproto/serializers/msgpack.py: MsgPackSerializer", "wampproto/session.py: WAMPSession.send_message, WAMPSession.receive"])
p("What a serializer writes is what the receiver reads",
  "A serializer either raises, or the receiver reads the same values that were sent.",
  "all values, all three formats", "infinite inputs, all nesting depths",
  ["wampproto/serializers/json.py: JSONSerializer", "wampproto/serializers/cbor.py: CBORSerializer",
   "wampproto/serializers/msgpack.py: MsgPackSerializer"])
p("Data that holds more than one message is refused",
  "If data consists of a serialized message followed by another one, deserialize raises.",
  "all messages, all three formats", "infinite inputs, all nesting depths",
  ["wampproto/serializers/json.py: JSONSerializer.deserialize", "wampproto/serializers/cbor.py: CBORSerializer.deserialize",
   "wampproto/serializers/msgpack.py: MsgPackSerializer.deserialize"])
p("A message cut short is refused",
  "If the end of a serialized message is missing, however much or little, deserialize raises; no part of a message is taken for a "
  "message.",
  "all messages, all proper prefixes of their data, all three formats", "infinite inputs, all cut points",
  ["wampproto/serializers/json.py: JSONSerializer.deserialize", "wampproto/serializers/cbor.py: CBORSerializer.deserialize",
   "wampproto/serializers/msgpack.py: MsgPackSerializer.deserialize"])
p("What a ValueError says of a message is so",
  "Each entry of a ValueError raised for a message names a field that has the type or value the entry says it has, and that differs "
  "from the type or range the entry demands; a message of the wrong length is refused with its length and the bound it broke.",
  "all messages, all fields, all values", "infinite inputs, all combinations of faulty fields",
  ["wampproto/messages/util.py: validate_message, sanity_check, validate_id_or_raise, validate_roles",
   "wampproto/messages/exceptions.py: InvalidDataTypeError, InvalidRangeError, InvalidDetailError",
   "wampproto/serializers/serializer.py: to_message"])
p("An answer to one WAMP-CRA challenge is of no use for another",
  "The challenge of a WAMP-CRA handshake is JSON a client can read, and holds the nonce and time drawn in this handshake, the session "
  "id and the identity; challenges that differ in one of these are different texts, and one AUTHENTICATE is accepted in two "
  "handshakes that differ in nonce, time or session id only if the MACs of two different texts are equal.",
  "all nonces, times, session ids and identities, all pairs of handshakes, all hash functions", "infinite inputs, all histories",
  ["wampproto/auth/wampcra.py: generate_wampcra_challenge, verify_wampcra_signature", "wampproto/acceptor.py: Acceptor.receive_message"])
p("Login over JSON, MessagePack and CBOR",
  "A client and a router that use the same one of the three serializers and follow the protocol complete the login, with each of the "
  "authentication methods, and both then hold the same session id, realm, authid and authrole.",
  "all three formats, all methods, all realms, identities, roles, extra data the format can carry",
  "infinite inputs, all message contents",
  ["wampproto/joiner.py: Joiner.send_hello, Joiner.receive", "wampproto/acceptor.py: Acceptor.receive",
   "wampproto/serializers/json.py: JSONSerializer", "wampproto/serializers/cbor.py: CBORSerializer",
   "wampproto/serializers/msgpack.py: MsgPackSerializer"])
p("Keys, challenges and signatures are spelled as RFC 4648 says",
  "WAMP-CRA signatures and derived keys are the Base64 text, and cryptosign keys, challenges and signatures the lower-case Base16 text, "
  "of the bytes they stand for, so that other WAMP implementations read them; hex text is read in either case, and text that is not "
  "hex is refused.",
  "all bytes, all texts, all lengths", "infinite inputs",
  ["wampproto/auth/wampcra.py: sign_wampcra_challenge, derive_cra_key",
   "wampproto/auth/cryptosign.py: generate_cryptosign_challenge, sign_cryptosign_challenge, generate_cryptosign_keypair, "
   "verify_cryptosign_signature"])
p("One text answers a challenge",
  "A router answers AUTHENTICATE with WELCOME only if its signature is the text a client of this package sends.",
  "all signatures, all handshakes", "infinite inputs, all histories",
  ["wampproto/auth/wampcra.py: verify_wampcra_signature", "wampproto/auth/cryptosign.py: verify_cryptosign_signature",
   "wampproto/acceptor.py: Acceptor.receive_message"])
p("What the sender of a bad message is told, word for word",
  "Reading a decoded value as a message succeeds, or raises an exception whose class and texts follow from the grammar of messages "
  "alone: one text for every element that is not what it should be, in order, with message name, position, key, expected and actual "
  "type; or one text that says the value is no list, has the wrong length or an unknown type code. A class's own parse says the same, "
  "and refuses messages of other kinds by name.",
  "all decoded values, all 24 message classes", "infinite inputs, arbitrarily nested values and combinations of mistakes",
  ["wampproto/serializers/serializer.py: to_message", "wampproto/messages/util.py: validate_message, sanity_check, validate_*",
   "wampproto/messages/exceptions.py: InvalidDataTypeError, InvalidRangeError, InvalidDetailError"])
p("A call sent in parts is one call",
  "All parts of a progressive call, the last one (without the option progress) included, reach the callee as INVOCATIONs with one id; "
  "the callee's one final YIELD becomes the RESULT, and nothing of the call then remains pending.",
  "all histories, any number of parts", "arbitrarily many interleaved calls and parts",
  ["wampproto/dealer.py: Dealer.receive_message"])
p("Numbers arrive as they were written",
  "A number with a fraction or an exponent in a JSON message is read as the nearest double, with its sign, or as an infinity if it is "
  "too large for any; every double a message holds is written so that the receiver reads the same double, in each of the three formats "
  "and from one to another; shorter floats that other programs send in MessagePack or CBOR are read as doubles of the same value.",
  "all decimal numbers of any length, all doubles but NaNs with unusual bits, all floats of 16 and 32 bits, all three formats",
  "infinite inputs; 2**64 doubles; rounding errors show for few of them",
  ["wampproto/serializers/json.py: JSONSerializer", "wampproto/serializers/cbor.py: CBORSerializer",
   "wampproto/serializers/msgpack.py: MsgPackSerializer"])
p("A refused login ends the same way with JSON, MessagePack and CBOR",
  "A client the authenticator refuses, or whose secret or key is not the right one, gets ABORT wamp.error.authentication_failed over each "
  "of the three serializers, whatever the authenticator raised; neither side then holds session details.",
  "all three formats, all methods, all identities, all exceptions of authenticators", "infinite inputs, all message contents",
  ["wampproto/joiner.py: Joiner.receive, Joiner.get_session_details", "wampproto/acceptor.py: Acceptor.receive",
   "wampproto/serializers/json.py: JSONSerializer", "wampproto/serializers/cbor.py: CBORSerializer",
   "wampproto/serializers/msgpack.py: MsgPackSerializer"])
p("A RawSocket connection carries the conversation",
  "A program that reads its peer's handshake, takes the serializer and the message size from it, and cuts the rest of the stream into "
  "frames by their headers sees exactly the messages, pings and pongs that were sent, in order and unchanged, with each of the three "
  "serializers and however the network cuts the stream into pieces; at any moment it has seen the first of them. Every payload shorter "
  "than 2**24 bytes that respects the size read from the listener's handshake is within the limit the listener announced.",
  "all conversations, all three serializers, all limits a handshake can carry, all ways to cut the stream",
  "arbitrarily long streams and any number of ways to cut them",
  ["wampproto/transports/rawsocket.py: send_handshake, receive_handshake, MessageHeader.to_bytes, MessageHeader.from_bytes",
   "wampproto/serializers/json.py: JSONSerializer", "wampproto/serializers/cbor.py: CBORSerializer",
   "wampproto/serializers/msgpack.py: MsgPackSerializer"])
p("However another program writes a message, it is read",
  "The standards let a sender choose how to write a value: white space, escapes, capital hexadecimal digits and exponents in JSON, numbers "
  "and lengths wider than needed in MessagePack and CBOR, shorter floats, strings, bytes, lists and maps in pieces or of open length in CBOR; "
  "UTF-8, UTF-16 or UTF-32, with or without a byte order mark, for a binary payload in JSON. Whatever the sender chose, the message, or the binary payload, is read as the values it stands for, and it stands for only one.",
  "all messages and values, all ways the standards allow to write them (dicts with distinct strings as keys), all three formats",
  "for every value there are infinitely many ways to write it", 
  ["wampproto/serializers/json.py: JSONSerializer.deserialize", "wampproto/serializers/cbor.py: CBORSerializer.deserialize",
   "wampproto/serializers/msgpack.py: MsgPackSerializer.deserialize", "wampproto/serializers/payload.py: deserialize_payload"])
p("What is sent follows the standards of the formats",
  "Every message and every binary payload that a format can carry is written in a way the standard of the format allows, so that every "
  "program that reads what the standard allows gets exactly the values of the message; but NaN and the infinities, for which JSON has no way of writing, are written in JSON as Python does.",
  "all messages and payloads the format can carry, all three formats", "infinite inputs; a test only knows the readers it was run with",
  ["wampproto/serializers/json.py: JSONSerializer.serialize", "wampproto/serializers/cbor.py: CBORSerializer.serialize",
   "wampproto/serializers/msgpack.py: MsgPackSerializer.serialize", "wampproto/serializers/payload.py: serialize_payload"])
p("Only who knows the secret answers a WAMP-CRA challenge",
  "Who is let in with a signature made with some key over some text had the secret the server holds for that client, and signed the "
  "challenge that was sent, unless they found two texts with the same hash; the two texts can be computed from the keys and the texts "
  "signed. An answer that lets in twice, in handshakes with different nonces, times or session ids, gives such a collision as well. A "
  "client with another secret ends with ABORT.",
  "all hash functions of 32 bytes (so SHA-256), all secrets and keys of any length, all texts, all handshakes",
  "quantifies over everything an attacker might sign and every key they might hold",
  ["wampproto/auth/wampcra.py: sign_wampcra_challenge, verify_wampcra_signature, derive_cra_key, WAMPCRAAuthenticator.authenticate",
   "wampproto/acceptor.py: Acceptor.receive"])
p("A float is written with as few digits as possible",
  "The number JSON writes for a finite float is read back as that float, no number with fewer significant digits is, and no other number "
  "with as many digits that is read as that float is nearer to it. It has at most 17 digits and 24 characters. In a message it stands as it is.",
  "all finite doubles, all numbers JSON allows that are read as that double", "2^64 doubles, and infinitely many numbers read as each",
  ["wampproto/serializers/json.py: JSONSerializer.serialize", "wampproto/serializers/payload.py: serialize_payload"])
p("A client answers the challenges of its method, and no others",
  "A client answers a CHALLENGE exactly if it names the method the client offered and carries what that method needs: for WAMP-CRA a text "
  "and, if there is a salt, a number of iterations and a key length; for cryptosign a hexadecimal text. The answer is the signature the "
  "method prescribes. Otherwise an exception that says what is wrong is raised, nothing is sent, and the client still answers the next "
  "CHALLENGE.",
  "all secrets, keys and tickets, all CHALLENGE messages, all cryptographic primitives, all histories of the joiner",
  "a malicious server may send any value at all",
  ["wampproto/auth/wampcra.py: WAMPCRAAuthenticator.authenticate, derive_cra_key", "wampproto/auth/cryptosign.py: CryptoSignAuthenticator.authenticate",
   "wampproto/auth/ticket.py: TicketAuthenticator.authenticate", "wampproto/auth/anonymous.py: AnonymousAuthenticator.authenticate",
   "wampproto/joiner.py: Joiner.receive_message"])
p("Names are only names",
  "Give every session another id and every topic and procedure another name, no two the same: the broker and the dealer then do the same, "
  "with the same messages to the renamed sessions, and raise exceptions of the same class where they did. So no name is special, no name is "
  "a prefix or a pattern of another, and nothing depends on how ids are ordered.",
  "all histories of any length, all calls of the API, all one-to-one renamings", "compares two unbounded histories, for infinitely many renamings",
  ["wampproto/broker.py: Broker.add_session, Broker.remove_session, Broker.receive_message, Broker.receive_publish, Broker.has_subscription",
   "wampproto/dealer.py: Dealer.add_session, Dealer.remove_session, Dealer.receive_message, Dealer.has_registration"])
p("The routers pass contents on without looking at them",
  "Args, kwargs, binary payloads, error URIs and details, options the router has no use for, and everything known of a session besides its id "
  "(realm, authid, authrole, roles) make no difference to what the broker and the dealer do: who gets a message of which type with which ids, "
  "which exception is raised and with which text. The contents of a message go as they are into the message made from it, and nothing of them "
  "has any effect later.",
  "all histories of any length, all calls of the API, all contents", "compares two unbounded histories, for infinitely many contents",
  ["wampproto/broker.py: Broker.add_session, Broker.remove_session, Broker.receive_message, Broker.receive_publish",
   "wampproto/dealer.py: Dealer.add_session, Dealer.remove_session, Dealer.receive_message"])
p("The routers do not say who is behind a message",
  "However the other sessions are exchanged with one another, a client gets the same messages in the same order. Who publishes, with which "
  "request id and which options, changes neither the EVENT nor who gets it; who calls, and with which request id, changes neither the "
  "INVOCATION nor who gets it (unless the call continues an earlier one).",
  "all histories of any length, all clients, all exchanges of the others, all publishers and callers",
  "compares what a client sees in two unbounded histories",
  ["wampproto/broker.py: Broker.receive_message, Broker.receive_publish", "wampproto/dealer.py: Dealer.receive_message"])
p("Until it lets a client in, a server tells nothing of the secrets",
  "Take two servers whose authenticators say the same, but hand out other WAMP-CRA secrets. Whatever messages they receive, as long as neither "
  "has let the client in, both answer and raise the same; only an AUTHENTICATE that is right for one of the secrets is answered differently. So a "
  "client learns nothing of a secret but whether its answer was right.",
  "all histories of messages, all secrets, all authenticators, random numbers and clocks, all cryptographic primitives",
  "compares two unbounded handshakes, for all secrets and all messages an attacker may send",
  ["wampproto/acceptor.py: Acceptor.receive_message", "wampproto/auth/wampcra.py: generate_wampcra_challenge, verify_wampcra_signature"])
p("A client tells its secret to nobody before it is asked",
  "All a client says and raises during the handshake is the same whatever its WAMP-CRA secret or ticket, but for the contents of its "
  "AUTHENTICATE; of a cryptosign key it tells the public key. That it answers at all, and which exceptions it raises, does not depend on the secret.",
  "all histories of the joiner, all secrets, tickets and keys, all messages of the server, all identities",
  "compares two unbounded handshakes, for all secrets and everything a server may send",
  ["wampproto/joiner.py: Joiner.send_hello, Joiner.receive_message", "wampproto/auth/wampcra.py: WAMPCRAAuthenticator.authenticate, derive_cra_key",
   "wampproto/auth/ticket.py: TicketAuthenticator", "wampproto/auth/cryptosign.py: CryptoSignAuthenticator"])
p("A server forgets whatever does not move the handshake on",
  "A message that is not answered with a CHALLENGE or a WELCOME, and is neither an ABORT nor an AUTHENTICATE whose signature does not verify, "
  "might as well not have been received: a rejected HELLO or ticket, a message that raises an exception, and any other kind of message make no difference "
  "to any later answer, to is_aborted() or to get_session_details(). After the messages that do move the handshake on, every HELLO is refused with ValueError.",
  "all histories of messages before and after, all authenticators, random numbers and clocks, all cryptographic primitives",
  "compares two unbounded handshakes, one with the message and one without",
  ["wampproto/acceptor.py: Acceptor.receive_message, Acceptor.is_aborted, Acceptor.get_session_details"])
p("A session goes by ids, and ids are only names",
  "Of the messages a client sends and receives, its session looks at the class, the ids and whether a PUBLISH asks for an acknowledgement. Take two sessions, with "
  "different serializers, and let them send and receive the same messages but for the contents (URIs, options, args, kwargs, payloads, details) and other "
  "ids, one for one: both pass on or both refuse each message to send, and both take or both refuse each message received, with the same words.",
  "all pairs of corresponding histories of any length, all one-to-one renamings of request, subscription, registration and invocation ids, all contents, all pairs of serializers",
  "compares two unbounded histories, for infinitely many ids and contents",
  ["wampproto/session.py: WAMPSession.send_message, WAMPSession.receive, WAMPSession.receive_message"])
p("Why a call stays unanswered", "In the same network, a CALL a client is waiting for that is neither on its way to the router, nor answered, nor in the hands of a connected client has been lost in one of three ways: the caller's serializer refused it; or the router passed it on to a client that has left since; or that client answered it and its serializer refused the answer. Such a call is never answered, whatever anybody does from then on: the caller waits for as long as it stays connected.",
  "all numbers of clients, all schedules of up to 2**53 steps, all serializers", "all interleavings of any length; and a claim about every continuation", ["wampproto/dealer.py", "wampproto/session.py"])
p("A server remembers one HELLO",
  "What a server answers to the next message, which exception it raises, is_aborted() and get_session_details() follow from the situation it is in: nothing has been "
  "decided, a HELLO was challenged, a client was let in, or it is over. Of all it received it remembers the HELLO it challenged and what the authenticator, "
  "the clock and the random source said at that time; from these every reply, byte for byte, is computed.",
  "all histories of messages, all next messages, all authenticators (stateful ones as well), random numbers and clocks, all cryptographic primitives",
  "gives the answer to every message after every history, with the words of every exception",
  ["wampproto/acceptor.py: Acceptor.receive_message, Acceptor.is_aborted, Acceptor.get_session_details", "wampproto/auth/wampcra.py", "wampproto/auth/cryptosign.py"])
p("Two applications can share a router",
  "Let the sessions of one application use topics and procedures nobody else uses, and the sessions of all others use other ones. Then the application could as well "
  "have the broker or the dealer for itself: take away everything that is done for the others, and each of its own calls of the API has the same outcome, and "
  "each of its sessions gets the same messages in the same order, but for the ids the router gives out (subscriptions, publications, registrations and "
  "invocations), which are other ones, one for one.",
  "all divisions of sessions, topics and procedures in two, all histories of up to 2**53 calls in which neither side uses the other's",
  "compares two unbounded histories, with and without the others, for every way to interleave them",
  ["wampproto/broker.py: Broker", "wampproto/dealer.py: Dealer", "wampproto/idgen.py: SessionScopeIDGenerator"])
p("A router everybody has left is as good as new",
  "Let every session that was added have been removed again. Whatever is done from then on has the outcome it would have with a broker or a dealer that was just "
  "created, but for the ids it gives out, which are other ones, one for one: no subscription, registration, call or request id of those who left shows through.",
  "all histories after which nobody is connected, all continuations, together up to 2**53 calls of the API",
  "compares the continuation of an unbounded history with the same continuation of nothing, for every history and every continuation",
  ["wampproto/broker.py: Broker", "wampproto/dealer.py: Dealer", "wampproto/idgen.py: SessionScopeIDGenerator"])
p("Why a request stays unanswered",
  "In the network of clients and router, a SUBSCRIBE, UNSUBSCRIBE, REGISTER, UNREGISTER or acknowledged PUBLISH a connected client waits for is on its way to the router, or its answer "
  "is on its way back, or it has been lost since the client joined, in one of three ways: the serializer of the client refused it when the session had written it down; or the "
  "router handled it as an UNSUBSCRIBE of a subscription, or as an UNREGISTER of a registration, the client did not hold then. A request that is not on its way and whose answer is not "
  "is never answered, whatever anybody does from then on, for as long as the client stays connected and does not send it again.",
  "all numbers of clients, all schedules of up to 2**53 steps, all serializers, all behaviours of clients (request ids used twice included)",
  "all interleavings of any length; and a claim about every continuation",
  ["wampproto/broker.py: Broker.receive_message", "wampproto/dealer.py: Dealer.receive_message", "wampproto/session.py: WAMPSession.send_message, WAMPSession.receive_message"])
p("From the first byte to the last message",
  "Put the parts together as their API suggests: over a byte stream that delivers in pieces of any size, a client sends the RawSocket handshake, the router answers, "
  "a Joiner and an Acceptor exchange framed messages of the serializer the handshake named, and when the client has been let in, its WAMPSession talks to the "
  "Broker and the Dealer in frames. However many clients do so, each with JSON, MessagePack or CBOR, in whatever order bytes arrive, clients log in, send, and lose their "
  "connection: the broker and the dealer are called exactly as if messages had been handed over whole and every login had been one step; the calls made on each session and the "
  "data on its way to it are the same; and no client takes itself to be in that the router has not let in. Hence, if clients use request ids once and send "
  "what all serializers can carry, a session never fails on a frame from the router, the router can read every frame of a client it let in, and a client that has used every byte "
  "sent to it has exactly the subscriptions and registrations the router lets it have.",
  "all numbers of clients, all schedules (for the last three: of up to 2**53 steps), all ways to cut the streams into pieces, all serializers and ways to log in, all authenticators",
  "quantifies over all interleavings and all fragmentations of the streams of any number of clients, through seven modules at once",
  ["wampproto/transports/rawsocket.py", "wampproto/joiner.py: Joiner", "wampproto/acceptor.py: Acceptor", "wampproto/session.py: WAMPSession", "wampproto/broker.py: Broker", "wampproto/dealer.py: Dealer", "wampproto/serializers"])
p("Nobody the authenticator has not approved of reaches the router",
  "Take the same system, with an acceptor that has an authenticator, and let any bytes at all come in on any connection, besides those written by clients of this "
  "package: broken frames, messages out of order, requests before, during and after login. Every call made on the broker or the dealer adds a session for which, on one connection, an answer to a "
  "login message was a WELCOME justified by the authenticator's approval (of the HELLO that came in on this connection, and of the ticket, for tickets), with the id drawn for that connection, the realm of that HELLO and the identity the "
  "authenticator gave; or it is on behalf of such a session, added before and not removed since. So as long as the authenticator approves of nothing, nothing happens to either; and if it approves of WAMP-CRA only, "
  "no session is added unless the MAC of the challenge sent on a connection, under the secret of the authenticator, has come in on this connection.",
  "all bytes on all connections, all numbers of clients, all schedules, all authenticators, clocks and random numbers, all cryptographic primitives",
  "quantifies over every byte string an attacker can send, in every interleaving with everybody else",
  ["wampproto/transports/rawsocket.py", "wampproto/acceptor.py: Acceptor", "wampproto/broker.py: Broker", "wampproto/dealer.py: Dealer", "wampproto/serializers"])
p("Those who are not let in make no difference to those who are",
  "In the same system, take any set of connections on which no login message is ever answered with WELCOME (for instance those on which the authenticator approves of nothing), whatever comes in on them and whenever. "
  "The calls made on the broker and the dealer, and the state of every other connection (login, bytes on their way, calls made on the session), are the same as if nothing had ever happened on those connections.",
  "all bytes on all connections, all sets of connections nobody is welcomed on, all numbers of clients, all schedules, all authenticators, clocks and random numbers",
  "compares two executions of the whole stack, for all attackers' inputs and all interleavings",
  ["wampproto/transports/rawsocket.py", "wampproto/acceptor.py: Acceptor", "wampproto/broker.py: Broker", "wampproto/dealer.py: Dealer", "wampproto/serializers"])
p("Every login comes to an end",
  "In the same system (with strangers who send any bytes on other connections), when a client of this package has connected, three exchanges are enough, each consisting of the bytes on their way arriving at the router, the router looking at them, "
  "its answer arriving at the client, and the client looking at it. Whatever else happens in between, on this and the other connections, however few bytes arrive at a time besides, whatever the authenticator, the clock and the random source say and whichever method the client uses: "
  "then the client is in and the router has let it in, or the client has given up, or the router has turned it away; and so it stays. Until then one of these four steps always changes something: there is no deadlock.",
  "all clients, authenticators, serializers and sizes, all schedules that contain three exchanges, all bytes on other connections",
  "a liveness property of the composition of handshake, framing, serializers, joiner and acceptor, over all interleavings and all ways of cutting the streams",
  ["wampproto/transports/rawsocket.py", "wampproto/joiner.py: Joiner", "wampproto/acceptor.py: Acceptor", "wampproto/serializers"])
p("Who has the credentials gets in",
  "In the same system (with strangers who send any bytes on other connections), a client of this package connects and is given a session id nobody else is given. With WAMP-CRA it has the secret the authenticator knows for it, with cryptosign the private key to the public key the authenticator approves of, "
  "with a ticket one the authenticator accepts, or it is anonymous and the authenticator has no objection. Then after three exchanges its session is established: the client has been told WELCOME, the router treats the connection as this session, and broker and dealer have added it under this id with the realm asked for and the authid and authrole the authenticator returned. "
  "Nothing that others do meanwhile can prevent it, whoever they are and whatever they send, nor does it matter how the bytes are cut or how the exchanges interleave with everything else.",
  "all clients with one of the four methods, authenticators, serializers, sizes, all schedules that contain three exchanges, all bytes on other connections",
  "availability under attack: a liveness property over all interleavings and all behaviours of other connections",
  ["wampproto/acceptor.py: Acceptor", "wampproto/joiner.py: Joiner", "wampproto/broker.py: add_session", "wampproto/dealer.py: add_session", "wampproto/transports/rawsocket.py"])
p("What a member is told comes from a member",
  "In the same system, with bytes of any kind coming in on the connections of strangers, none of whom is welcomed: if the strangers' connections are taken away, what is left is a network of sessions in which only what the members did has happened. "
  "Every EVENT, INVOCATION, RESULT and call ERROR that the session of a member hands to its application has the arguments of a PUBLISH, CALL, YIELD or ERROR that the application of a member asked its session to send, or it is the router's own no_such_procedure. "
  "And the EVENTs are, in order and one for one, the PUBLISHes the broker has handled while the member's session was subscribed to their topic: the first of them, and all of them once nothing is on its way to the member.",
  "all schedules, bytes from strangers, serializers, sizes, messages, cuts of the byte streams",
  "end-to-end integrity under attack, from application to application through session, serializer, framing, router and back, over all interleavings",
  ["wampproto/session.py: WAMPSession", "wampproto/broker.py: Broker", "wampproto/dealer.py: Dealer", "wampproto/acceptor.py: Acceptor", "wampproto/joiner.py: Joiner", "wampproto/serializers", "wampproto/transports/rawsocket.py"])
p("Who is not let in learns nothing about the others",
  "In the same system: as long as nobody has been welcomed on a connection, everything about the connection, in particular every byte the router has put on the way back, is determined by what has happened on this connection alone (the bytes that came in there, and what the authenticator, the clock and the random source said when they were looked at). "
  "Two systems in which the same happens on that connection cannot be told apart from there, whoever else is connected and whatever they subscribe to, publish, register or call; and whether one is welcomed does not depend on the others either.",
  "all pairs of schedules that agree on one connection, all bytes, clients, messages",
  "secrecy: relates two executions that differ arbitrarily elsewhere",
  ["wampproto/acceptor.py: Acceptor", "wampproto/broker.py: receive_publish", "wampproto/dealer.py: receive_message", "wampproto/transports/rawsocket.py"])
p("The whole system comes to rest, and then everybody has been answered",
  "In the same system, once everybody connected has logged in and applications ask for nothing new but answer the invocations they are handed: there is a bound on the number of further steps, in whatever order they happen and whatever pieces the bytes arrive in; as long as a byte is on its way, a frame lies unread or an invocation is unanswered, some step is possible; and when none is possible any more, no client waits for the answer to any request it sent. "
  "Strangers who are never welcomed, whatever bytes they send, change nothing of this.",
  "all schedules of connections, deliveries and requests, all formats, all message contents, all orders in which the rest is dealt with",
  "liveness over unbounded interleavings through framing, serializers, login and routing",
  ["wampproto/session.py: WAMPSession", "wampproto/dealer.py: receive_message", "wampproto/broker.py: receive_message", "wampproto/transports/rawsocket.py", "wampproto/serializers"])
p("Only the present matters to the router, not how it came about",
  "Two brokers with the same sessions connected and the same subscribers per topic, in the same order, have the same outcome for every call from now on, whatever happened to them before, but for the ids they give out, which correspond one for one; and a broker with another present is told apart by at most two calls. "
  "The same for two dealers with the same sessions, the same callee per procedure, the same calls in progress and the same request ids in use. "
  "In particular publications, questions, refused requests and calls, made under a request id not in use before, that were answered with a RESULT leave no trace.",
  "all pairs of histories with the same present, all continuations",
  "relates pairs of unbounded histories and all their continuations",
  ["wampproto/broker.py: Broker", "wampproto/dealer.py: Dealer"])
p("Between a member and the router nothing is lost, repeated or reordered",
  "Over the whole stack (login, serializers, RawSocket frames cut anywhere, other clients, strangers sending anything): the messages a member's application asked to send and its session took are, in order and one for one, first those the router has called broker and dealer for since the member came in, with the contents receivers see, then those whose bytes are on their way. "
  "The messages broker and dealer have returned for the member since it came in are, in order and one for one, first those its application has been handed, then those on their way; it is handed nothing else. "
  "At rest, the router has handled all the member sent, and the member has seen all it was told.",
  "all schedules of any number of clients, connections and strangers, all serializers, all ways to cut the byte streams",
  "unbounded executions of interacting components over byte streams",
  ["wampproto/session.py: WAMPSession", "wampproto/broker.py: Broker", "wampproto/dealer.py: Dealer", "wampproto/transports/rawsocket.py: MessageHeader", "wampproto/joiner.py: Joiner", "wampproto/acceptor.py: Acceptor"])
p("Who still waits when everything has come to rest",
  "Over the whole stack: when nothing is on its way and no client owes an answer, a member still waiting for the answer to a CALL made one which the dealer passed on to a member whose connection has ended since; and no answer comes, whatever members and strangers do from then on, for as long as its connection lasts. "
  "A member with nothing on its way on its connection that still waits for the answer to another request made an UNSUBSCRIBE of a subscription, or an UNREGISTER of a registration, it did not hold when the router handled the request; and no answer comes, unless it makes the same kind of request again under the same id.",
  "all schedules of any number of clients, connections and strangers before and after, all serializers, all ways to cut the byte streams",
  "about all continuations of unbounded executions",
  ["wampproto/dealer.py: Dealer.remove_session", "wampproto/dealer.py: Dealer.receive_message", "wampproto/broker.py: Broker.receive_message", "wampproto/session.py: WAMPSession", "wampproto/transports/rawsocket.py: MessageHeader"])
p("Only the order at the router and at each client makes a difference",
  "Over the whole stack, with any clients and any strangers: take two runs in which the router does the same things in the same order, and each client does the same things in the same order. However the bytes were cut and delayed, and however the actions of different parties were interleaved, broker and dealer come out the same, every session has had the same calls, and once the bytes still on their way have arrived the two systems are equal. "
  "And if in one run every party has come only part of the way it came in another, that run can always be continued so that they become equal: no delay and no order of arrival shuts off what could have been reached.",
  "all pairs of schedules of any number of clients, connections and strangers, all serializers, all ways to cut the byte streams",
  "about all pairs of interleavings of unbounded executions",
  ["wampproto/session.py: WAMPSession", "wampproto/broker.py: Broker", "wampproto/dealer.py: Dealer", "wampproto/joiner.py: Joiner", "wampproto/acceptor.py: Acceptor", "wampproto/transports/rawsocket.py: MessageHeader"])
p("Unrelated requests may be handled in either order",
  "Two calls of a broker's or a dealer's API for different sessions, made after any history. If neither may change who is subscribed to (or has registered) a topic (procedure) that matters to the other, if they do not deal with the same request of a caller, and if neither answers the invocation the other leads to, then it makes no difference which comes first: each has the same outcome in either order, and so has everything done later, but for the next two ids, which may be exchanged. So two publications to one topic, two calls of one procedure, a call and the answer to another, or subscriptions to different topics never interfere. "
  "It does make a difference for two that subscribe to one topic (the order of the recipients shows it for ever after), and for two that register one procedure (the first has it).",
  "all histories, all pairs of unrelated calls, all later sequences of calls",
  "about all pairs of executions of unbounded length, and all continuations",
  ["wampproto/broker.py: Broker", "wampproto/dealer.py: Dealer", "wampproto/idgen.py: SessionScopeIDGenerator"])
p("Two applications can share a network",
  "Clients built on WAMPSession and a router built on Broker and Dealer serve two applications. The clients of the first, and nobody else, publish and subscribe to its topics and register and call its procedures; and no client reports an error about an invocation unless it has received that invocation and not answered it. Then at every moment, whatever the others do and however the two are interleaved, each client of the first application has seen, call by call, exactly what it would have seen had the others not been there - what its session returned, what it accepted, what it raised - and the same messages are on their way to it and from it; all but for the subscription, publication, registration and invocation ids, which are exchanged one for one. "
  "The proviso about errors is needed: a client that reports an error about an invocation that is not its own ends a call of the other application.",
  "all schedules, all divisions of clients, topics and procedures into two applications",
  "a statement about pairs of whole executions of unbounded length, for all interleavings",
  ["wampproto/session.py: WAMPSession", "wampproto/broker.py: Broker", "wampproto/dealer.py: Dealer", "wampproto/idgen.py: SessionScopeIDGenerator"])
p("When everybody has left, newcomers cannot tell that anybody was there",
  "Clients built on WAMPSession use a router built on Broker and Dealer, do whatever they like, and at some moment all of them have been removed - with calls in progress, messages on the way, subscriptions and registrations in place. Clients that come afterwards, under session ids that were not used before, have at every later moment seen, call by call, exactly what they would have seen of a Broker and a Dealer that were just constructed, and the same messages are on their way to them and from them; all but for the subscription, publication, registration and invocation ids, which are exchanged one for one. It is assumed that no client reports an error about an invocation unless it has received it and not answered it. "
  "New session ids are needed: a client that comes back under its old session id and repeats the request id of a progressive call that was in progress when it left has its call taken for a continuation of that one, and the answer is refused.",
  "all schedules before and after the moment at which nobody is connected",
  "a statement about pairs of whole executions of unbounded length; the state the dealer keeps after everybody has left depends on the whole of the past",
  ["wampproto/session.py: WAMPSession", "wampproto/broker.py: Broker", "wampproto/dealer.py: Dealer.remove_session", "wampproto/dealer.py: Dealer.receive_message"])
p("What visitors did at a broker cannot be told once they have left",
  "Some sessions come to a Broker, subscribe, publish, unsubscribe and leave, while others use it for the same topics. Once the visitors have been removed, whatever is done from then on has the outcome it has at a Broker the visitors never came to and where all others made the same calls (each unsubscribing with the id it was given), but for the subscription and publication ids, which are exchanged one for one. While the visitors are there, whatever another asks for is granted if and only if it is granted without them, and a PUBLISH of another reaches the same of the others in the same order with the same contents.",
  "all histories of a broker, all sets of visitors, interleaved in any way with the others, all continuations",
  "a statement about pairs of histories of unbounded length; the ids in them differ in a way that changes with time, since a topic keeps its id as long as anybody, visitor or not, is subscribed to it",
  ["wampproto/broker.py: Broker.remove_session", "wampproto/broker.py: Broker.receive_message", "wampproto/broker.py: Broker.receive_publish"])
p("What is undone leaves no trace with the routers",
  "add_session followed by remove_session of the same session, SUBSCRIBE followed by UNSUBSCRIBE of a session not subscribed before, REGISTER followed by UNREGISTER, a progressive result, and a CALL followed by its final answer - a RESULT or an ERROR - leave a Broker or a Dealer that does from then on what it would have done without them, but for the ids it gives out.",
  "all histories of a broker or a dealer, all continuations",
  "what a router will do for ever after is compared; leftovers show only in continuations that happen to touch them",
  ["wampproto/broker.py: Broker", "wampproto/dealer.py: Dealer"])
p("What is short enough when it is sent is short enough for everybody",
  "How long a message can become on its way can be computed from its contents alone: whichever of the three serializers writes it, its data is no longer than a room given by its strings, numbers and containers, and every message Broker and Dealer make from it for somebody needs at most 256 bytes of room more. If applications send only messages whose room and 256 are below 2^24, no frame is ever too long for anybody, whatever serializers the clients use. Measuring with the sender's own serializer does not suffice.",
  "all messages of values all three serializers restore; all histories of router and clients; all choices of serializers",
  "contents, serializers and histories are unbounded, and the bound is on data of 16 MB",
  ["wampproto/serializers/json.py: JSONSerializer.serialize", "wampproto/serializers/cbor.py: CBORSerializer.serialize", "wampproto/serializers/msgpack.py: MsgPackSerializer.serialize", "wampproto/broker.py: Broker.receive_publish", "wampproto/dealer.py: Dealer.receive_message", "wampproto/transports/rawsocket.py: MessageHeader"])
p("Nobody is flooded",
  "A call of the Broker makes it send each session at most one message, and one more to the session whose message it was; a call of the Dealer makes it send one message at most. So in a system of clients and a router, whatever the clients send, well-formed or not, and whatever serializers they use, a client has been sent at most one message for every message any client has been asked to send, and one more for every message it has been asked to send itself.",
  "all schedules of all clients, all messages, all serializers; no bound on the number of calls",
  "amplification depends on the whole state of the router and on every interleaving",
  ["wampproto/broker.py: Broker.receive_publish", "wampproto/broker.py: Broker.receive_message", "wampproto/dealer.py: Dealer.receive_message"])
p("Nobody gets what they have not asked for",
  "In a system of clients and a router, all that is ever sent to a session id is owed to a message sent by that session id: a SUBSCRIBED, UNSUBSCRIBED, REGISTERED, UNREGISTERED, PUBLISHED, RESULT or ERROR answers its request of that kind and id, a PUBLISHED only one that asked for an acknowledgement and a progressive RESULT only a CALL that asked for progress; an EVENT goes only to who has subscribed, an INVOCATION only to who has registered; messages of other kinds are not sent. The other clients may send what they like with any serializers; only what the client sends itself has to be read as it was meant. A client that sends nothing is sent nothing.",
  "all schedules of all clients (up to 2^53 actions), all messages and serializers of the others",
  "what the others may try is unbounded, and whether a message can be turned at a bystander depends on the whole state of the router",
  ["wampproto/broker.py: Broker.receive_publish", "wampproto/broker.py: Broker.receive_message", "wampproto/dealer.py: Dealer.receive_message"])
p("Never more answers than requests",
  "In a system of clients and a router, whatever everybody sends: for every session id, every kind of request (CALL, REGISTER, UNREGISTER, PUBLISH with acknowledge, SUBSCRIBE, UNSUBSCRIBE) and every request id, the router has sent the session id at most as many answers (replies and ERRORs, not counting progressive RESULTs) as the application has asked to send such requests. A request id used once is answered once at most, even if the callee answers several times or strangers to the call send ERRORs for it.",
  "all schedules of all clients (up to 2^53 actions), all messages, all kinds and ids of requests",
  "how often a call is answered depends on everything callees and others send in any order, and on what the dealer keeps between messages",
  ["wampproto/dealer.py: Dealer.receive_message", "wampproto/broker.py: Broker.receive_message", "wampproto/broker.py: Broker.receive_publish"])
p("The answer is the last word",
  "In a system of clients and a router, whatever everybody sends: once the router has answered a request whose id the session id has used for one request of its kind only, it never sends the session id anything more in reply to it. In particular a progressive RESULT for a CALL comes before the final RESULT or ERROR or not at all, so what a caller keeps for a call can be dropped when the answer arrives.",
  "all schedules of all clients (up to 2^53 actions), all messages, all kinds and ids of requests",
  "late messages depend on everything callees and others send in any order after the answer",
  ["wampproto/dealer.py: Dealer.receive_message", "wampproto/broker.py: Broker.receive_message", "wampproto/broker.py: Broker.receive_publish"])
p("Nobody overhears",
  "In a system of clients and a router, whatever everybody sends: the contents of every message the router sends to a session id were meant for it. The arguments of an EVENT are those of a PUBLISH to a topic the session id has sent a SUBSCRIBE for; those of an INVOCATION are those of a CALL of a procedure it has sent a REGISTER for; those of a RESULT come from a YIELD of a session id that has sent a REGISTER for the procedure it called with that request id; those of an ERROR come from an ERROR somebody has sent, or it has none. So what is published to one topic only is never sent to who has not asked for that topic.",
  "all schedules of all clients (up to 2^53 actions), all messages, topics, procedures and arguments",
  "where contents end up depends on every subscription, registration and pending call at that moment, and so on everything everybody has sent before",
  ["wampproto/broker.py: Broker.receive_publish", "wampproto/broker.py: Broker.receive_message", "wampproto/dealer.py: Dealer.receive_message"])
open("/verif/properties.jsonl", "w").write("".join(json.dumps(x) + "\n" for x in P))
print(len(P))
for x in P: print(x["id"], x["title"])
