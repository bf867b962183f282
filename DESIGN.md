# Formal model of wampproto-python in Lean 4 — design

## Approach

`/repo/wampproto` is a sans-IO library: every class is a plain state machine driven by method calls.
The model is a set of small, total, computable Lean functions that mirror the Python functions branch
by branch (`lean/Verif/Model/*.lean`); each definition cites the file and lines it models.
Exceptions are values: a method is `State → Input → State × Except Exc Output`, and the returned
state is the state *at the moment of the raise*, so partial mutation before an exception is visible.

Layers:

| layer | directory | content |
|---|---|---|
| model | `Verif/Model/` | the code, function by function |
| specification | `Verif/Spec/` | small independent vocabulary (grammar table, traces, "currently holds") |
| lemmas | `Verif/Proofs/` | helper lemmas, invariants |
| properties | `Verif/Props/` | one theorem group per property C01…, with non-vacuity examples |

`INDEX.md` (generated) tells where each theorem of the manifest is, and what each module is about.

## Modelling decisions

* **Python values** (`Value`): None, bool, int (unbounded), float (IEEE bits), str, bytes, list, dict
  (insertion-ordered association list) and `obj` for any other object. `bool` is an `int` for
  `isinstance`, so `True` is accepted as an id, and `1.0 == 1` in `sanity_check`; both are modelled.
* **Shared mutable objects**: `Subscription`/`Registration` objects are referenced from two dicts.
  The model keeps an explicit heap (`ref → object`) and the dicts hold references, so aliasing is
  modelled, not assumed.
* **Dicts/sets**: insertion-ordered association lists with Python's update/delete semantics.
* **Ids**: `idgen` wraps at 2**53; the wrap is modelled (no unbounded-Nat shortcut).
* **Typed API**: callers pass arguments of the annotated types (e.g. `topic: str`); decoded wire values are
  arbitrary `Value`s.
* **External code as parameters**: json/cbor2/msgpack (`dumps`/`loads`; modelled in C88–C92, C95, and in the text of the
  WAMP-CRA challenge), HMAC-SHA256, PBKDF2,
  Ed25519, random bytes, the clock and the server authenticator are universally quantified
  parameters. Laws they need (e.g. "verify accepts what sign produced") are explicit hypotheses of
  the theorems that need them. hex and base64 are modelled concretely.

## Properties: what is modelled, how proved

* C01–C09 (wire format): `Value`, `Message`, validators, `VALIDATION_SPEC` tables, `parse`, `marshal`,
  `to_message`. Proof by case analysis over the message classes plus one lemma per validator;
  C04/C05 against an independent grammar table. C02, C03, C06 are false of the code in general:
  refuted by a witness, the true part is `_partial`.
* C10–C12: codec is a parameter with a round-trip hypothesis; `payload.py` modelled in full.
* C13–C16 (rawsocket): integer/bit arithmetic on `Int`/bytes. C14, C16 false of the code: witness + partial.
* C17–C18: induction over the number of draws; closed form `draw n = n % 2^53 + 1`.
* C19–C29 (broker): invariant over heap states by induction over histories; the specification
  (`holds`) is a function of the observable trace (calls and their results) only.
  Hypothesis "no session is handed an id it already holds for another topic" is discharged
  for every history with fewer than 2^53 calls; a wrap-around witness shows it is needed.
* C30–C45 (dealer): same technique. C34, C37, C40, C43, C45 are false of the code in general:
  refuted by witnesses, proved under explicit hypotheses as `_partial`.
* C46–C52 (session): trace specification of outstanding requests; induction over histories.
  C50, C52 false of the code: witnesses + partial.
* C53–C60 (acceptor): transition-system invariant over arbitrary message sequences with an arbitrary
  (possibly stateful) authenticator given per step. C55, C57, C60 false of the code: witnesses + partial.
* C61–C66 (joiner, auth, handshake): state machine + symbolic crypto parameters.
* C67–C68 (composition): a network of N clients and one router with FIFO queues; invariant
  "replaying what is in flight on the client's state succeeds and yields the router's view".
* C71–C72 (the fate of a call): for every message in flight and every client's open request, an invariant tells the chain of
  actions that led to it (`Spec/Story.lean`). C72 false when callees leave: witness + partial.
  C115 says what is true instead: the three ways a call gets lost, and that a lost call is never answered (`Proofs/NetLost.lean`).
* C73 (binary payloads at the dealer): case analysis over the outcomes of a step; false of the code: witness + partial.
* C74 (streams of events): a function of the schedule (`feed`, `Spec/Stream.lean`) says what a subscriber should see; the
  invariant is that received plus in flight equals it.
* C75 (requests other than CALL): the invariant is that every outstanding request is in a channel or answered in one; for
  withdrawals also that what they name is still held. False of withdrawals of something not held: witnesses + partial.
* C76–C77 (more on the session): case analysis over message classes; a bisimulation between sessions in the same situation,
  and for the converse a sequence of calls that tells any two situations apart.
* C78 (RawSocket streams): induction over the reading of a stream (`Spec/Frames.lean`).
* C79 (broker as a table): an executable reference broker (`Spec/BrokerTable.lean`) and a simulation through the broker's
  invariants; equality of all answers by induction over the history.
* C80 (dealer as a table): the same for the dealer (`Spec/DealerTable.lean`), without any assumption on clients; the
  reference keeps the request-id marks as the code does, so it is exact about the defects of C32/C45 and C37/C40 too.
* C81 (network on bytes): `Spec/ByteNet.lean` repeats the network of `Spec/Network.lean` with what serializers produce in
  the channels and one serializer per client.  The theorem is a simulation: it refines the network on messages with every
  sent message replaced by `received m`, what a receiver sees of it (C01).  The serializers are abstract: each must restore
  a set of values `D` that is closed as messages need it (`DataSet`; the values JSON can carry form one, `json_dataSet`).
  That cbor2, msgpack and json, as modelled, restore such a set is C88.
  `Props/ByteContents.lean` says what the events, invocations and results applications are handed contain (C81_event, C81_invocation,
  C81_result, C89_contents).
* C82 (coming to rest): `Spec/Rest.lean` says which actions ask for nothing new (route, deliver, answer an invocation in
  hand). A weight over channels and invocations in hand decreases with every such action; one publish may put an EVENT and
  an acknowledgement in the channel of every client, hence the bound (2n+5)n. C72 and C75 then say that at rest every
  request has been answered.
* Effects on later calls: the theorems `*_delivery` (`Props/BrokerEffects.lean`) and `*_routing`, `C35_call_ended`
  (`Props/DealerEffects.lean`) state what C22–C25, C30, C35, C41, C42 do to the next publish or CALL, through
  `Spec/Effects.lean` (`receivers`, `target`: only what `publish`/`receive_message` return). A view computed from replies
  alone would not notice a call that answers correctly and then does nothing.
* C83–C84 (dict objects): `Model/Sharing.lean` gives dicts an address. One step lemma (`step_deref`) says which operation can
  change which dict; both properties are invariants over the rest of the program. `C83_messages_by_value_partial` is what
  allows the rest of the model to treat options as values. `C83_exact` says which serializer a message announces
  after any program: the last one written into its dict, or its own.
* C85 (refused handshakes): as C63, the two state machines are run against each other over the codec.
* C86–C87 (sessions that have left): from the relations between state and view that C19–C45 rest on; `marks_pending` is a
  further invariant of the dealer. What fails, fails for calls in progress only.
* C88–C92 (the formats): `Model/Json.lean`, `Model/MsgPack.lean` and `Model/Cbor.lean` model `json`, `msgpack` and `cbor2` on
  characters and bytes; the proofs are by induction on values (writing) and on the length of the data (reading), with the
  data that follows as a variable. C91 is that generalization read off; C92 rests on "reading more data gives the same value".
* C93 (truth of error entries): `Spec.Truthful` says what each kind of entry claims of the decoded list; every validator is
  shown to produce only true entries and to raise nothing but IndexError, and this carries over to the 24 classes.
* C94 (`Props/Challenge.lean`): the challenge text is `Json.text` of the dict; that `json.loads` returns the dict makes the text
  injective in nonce, time, session id and identity, and C54 then turns one answer accepted twice into a collision of the MAC.
* C95 (`Props/HandshakeFormats.lean`): C63 with the codecs of C88; the assumption that the codec carries the messages becomes that
  the values fit the format.
* C96, C97 (`Spec/Encoding.lean`, `Proofs/Rfc4648.lean`, `Props/Spelling.lean`): Base16 and Base64 over bit strings. Writing is by
  induction over the groups; the decoding loop by an invariant on the bits carried. C97 false of the code: witness + partial.
  `C97_exact` (`Proofs/Base64Read.lean`): exactly the texts `Base64Read` are accepted; there is one place to stop reading (`ReadsTo.unique`).
* C98 (`Spec/Complaints.lean`, `Proofs/Complaints.lean`, `Props/Complaints.lean`): the texts are written down from the grammar
  table; one lemma per validator shows that it says exactly the text of its kind of element, and these are carried through
  `validate_message` and the 24 classes.
* C99 (`Props/Progressive.lean`): induction over the parts marked `progress`, each of which leaves the dealer's state as it was.
  False of the code for the last part.
* C100 (`Spec/Numbers.lean`, `Model/Float.lean`, `Proofs/Float.lean`, `Proofs/Numbers.lean`, `Props/Numbers.lean`): decimals and doubles
  as rationals. Reading: the multiple of a power of two that `halfEven` picks is compared with every other double. Writing: the
  digits are chosen among decimals that read back, as `repr` does, and if there were none all digits of the double would be written.
* C101 (`Props/RefusedFormats.lean`): C85 with the codecs of C88.
* C102 (`Spec/Connection.lean`, `Props/Connection.lean`): the programs at both ends of a stream are part of the statement: they are not
  in /repo, but use nothing else than its handshake, headers and serializers. Invariant over the pieces of the stream: what the listener
  has heard are the frames that C78 reads from the bytes so far.
* C103–C104 (`Spec/Spellings.lean`, `Proofs/Spellings*.lean`, `Proofs/Conforms.lean`, `Props/Spellings.lean`): what RFC 8259, the
  MessagePack specification and RFC 8949 allow, as inductive relations between values and texts or bytes. Reading: induction over the
  derivation, with enough fuel. For numbers in JSON the double is unique (`Proofs/OneReading.lean`), so that what is read is the one
  of the relation. Writing: induction over the value. Encodings (`Spec/Encodings.lean`, `Proofs/Encodings.lean`): a JSON text starts with
  an ASCII character and has no NUL, so its first bytes tell which encoding it is in.
* C105 (`Model/Hmac.lean`, `Spec/Hmac.lean`, `Proofs/Hmac.lean`, `Props/Secret.lean`): a reduction. HMAC over an arbitrary hash `H`: equal
  MACs force equal outer texts or a collision of `H` between them, then equal inner texts or a collision, then equal blocks of the key
  and equal messages. Keys with the same block are characterised by `SameKey`. "`H` has a collision" alone would be true of every `H`;
  the theorems name the two texts.
* C106 (`Spec/Numbers.lean`, `Proofs/Shortest.lean`, `Props/Shortest.lean`): rounding is monotone, so between a double and a decimal that
  reads back everything reads back; of all decimals with `p` digits one of the two neighbours of the double is therefore the best
  candidate, and these are what `repr` tries. Neighbouring doubles are further apart than decimals of 17 digits.
* C107 (`Spec/Answers.lean`, `Props/Answers.lean`): case analysis over what a CHALLENGE may carry, in the order in which the code looks
  at it; the joiner part is C61.
* C108, C110 (`Spec/Renaming.lean`, `Proofs/Renaming.lean`, `Proofs/RenamingDealer.lean`, `Props/Renaming.lean`): two runs side by side. A
  simulation relates the state of a router with that of the same router in a renamed history (same heap cells and ids, keys renamed);
  every step keeps it, so outcomes correspond after histories of any length. Exchanging sessions is a renaming that leaves one client as
  it is. Texts of `ValueError`s contain session ids and are not compared.
* C109 (`Spec/Contents.lean`, `Proofs/Contents.lean`, `Props/Contents.lean`): the same with a history in which nothing has contents; the
  two states are equal but for what is known of the sessions. Here exceptions are equal including their texts.
* C111, C112 (`Spec/Secrecy.lean`, `Props/Secrecy.lean`): two handshakes side by side that differ in the secret; the states are equal but
  for where the secret is kept. Induction over the messages received.
* C32, C37, C40, C45 exactly (`Spec/Slots.lean`, `Proofs/Slots.lean`, `Props/Slots.lean`): `call_to_invocation_id` as a function of
  the trace (`Current`: the last CALL with that request id, unless a final RESULT came since); with it the exact conditions under
  which YIELDs succeed and continuations continue, without the proviso on request ids.
* C90 exactly (`Spec/Arrives.lean`, `Props/Arrives.lean`): what the receiver reads of any value that was written. For JSON `jsonArrives`
  gives keys their names and lets entries with the same name collapse, by the generalization of C88's induction in which the value
  read need not be the value written. For MessagePack each item is either read or fails, and which it is depends on the keys.
  `merge` describes collapsing without building a dict; it is proved equal to what the reader does.
* C117 (`Spec/Tenants.lean`, `Props/Tenants.lean`): two applications at one router, compared with one of them alone. Proved on the
  tables of C79 and C80: the table of one side is the table of all, filtered and with other ids, and the renaming is "the how-manieth
  id of its side". At the dealer the claim is false as it stands, since an ERROR is taken from anybody (C34); the partial theorem asks
  that ERRORs come from the side the INVOCATION was sent to.
* C120 (`Spec/Stack.lean`, `Proofs/Stack.lean`, `Proofs/KeepsType.lean`, `Props/Stack.lean`): handshake, frames, login, sessions, broker and
  dealer together, over byte streams. A forward simulation of the network of C81: while bytes move and clients log in that network does
  nothing; letting a client in is its `join`; reading a frame is its `route` or `deliver`. The invariant: during login at most one frame is
  on its way, in either direction, and none that reads as WELCOME (all three serializers keep the type code of the login messages) until
  the router has let the client in. The program around the parts is not in the repository; it calls them as their API suggests; login
  data too long for a frame ends the login.
* C121 (`Spec/Strangers.lean`, `Proofs/Strangers.lean`, `Props/Strangers.lean`): the stack of C120 with one more action, `inject`, that puts any
  bytes onto the way to the router.  `dialog` collects, per connection, the id drawn for it and the login messages the router has read from it;
  `Consented` says of a session that the authenticator's approval (`Justified`, C53) of what came in on one connection led to its WELCOME.  Invariant: every connection that is in
  belongs to a session consented to that the broker and the dealer have; no two connections share one.
* C122 (`Spec/Strangers.lean`, `Props/Bystanders.lean`): the same stack, with and without some connections (`without`).  By induction over the
  schedule: as long as nobody is welcomed on them, what happens on those connections changes nothing but their own state.
* C123 (`Spec/LoginEnds.lean`, `Proofs/LoginEnds.lean`, `Props/LoginEnds.lean`): liveness. An invariant per connection (one handshake or one frame on
  its way, in one direction) and a number from 0 to 12 (how far the login has come) that no action decreases and the next step of an exchange increases.
* C124 (`Spec/LoginEnds.lean`, `Proofs/LoginSucceeds.lean`, `Props/LoginSucceeds.lean`): availability. A second invariant per connection says that what is on
  its way is what an undisturbed login would send at this point (`Well`), another that nobody else has to do with this session id (`Apart`); with C123 the
  login ends, and it cannot end otherwise than well. With C121 it is an equivalence: who has the credentials gets in, and nobody else.
* C125 (`Spec/Members.lean`, `Props/Members.lean`): integrity from application to application, with strangers about. No new invariant: C122 takes the
  strangers away, C120 and C81 lead to the network on messages, there C74 and C71 say where a message comes from, and `Corresponds.seen` brings it back to
  what the application sees on bytes. `concerns` states the feed of a subscriber on the calls of the actual broker; `feed_concerns` shows it to be C74's.
* C126 (`Props/Unseen.lean`): the other direction of C122, by induction over the schedule: a step elsewhere changes a connection only by `Link.push`, which
  does nothing to a connection nobody has been let in on; a step on the connection uses the connection alone, unless it is a WELCOME.
* C127 (`Spec/StackRest.lean`, `Props/StackRest.lean`): C82 carried through the stack. A move of the stack is a move of the network of sessions, or carries
  bytes; the first decreases C82's weight, the second the number of bytes on the way, which the weight bounds. At rest the network of sessions is quiet.
  With strangers about, through C125's `only_members`.
* C128 (`Spec/Present.lean`, `Props/Present.lean`): two tables of C79 (C80) with the same present are related by a renaming of ids: ids in use correspond
  through topics, procedures and calls, ids still to be given out by their distance from the next one. Every step keeps the relation. C118 is the case of
  an empty present.
* C129 (`Spec/Channels.lean`, `Props/Channels.lean`): C120 relates the stack to queues; here the logs at both ends are compared: the calls on broker and dealer
  for a session since it was added (`brokerHandled`, `dealerHandled`) with the messages its session took (`asksTaken`), and what broker and dealer
  returned for it (`brokerSaid`, `dealerSaid`) with what it was handed (`messagesSeen`). C127 says when nothing is on its way any more.
* C130 (`Spec/StackLost.lean`, `Props/StackLost.lean`): the converse of C127. Over the whole stack, C115 and C119 leave only three ways a request is
  lost (no serializer refuses here), each read off the calls on broker and dealer: `PassedToLeaver`, `UnsubscribedNothing`, `UnregisteredNothing`.
* C131 (`Spec/Order.lean`, `Props/Order.lean`): trace equivalence of the whole stack. Events at different places commute up to bytes still on their
  way (`commute`, `commute_serve`); `doneBy` is what remains of a schedule at one place, and it determines the system. That `takesPart` cannot be
  made coarser is shown by `contest`: with the clients' orders alone the same, the dealer may differ.
* C132 (`Spec/Unrelated.lean`, `Props/Unrelated.lean`): independence of two requests, over the tables of C79 and C80. Each call is turned into its
  effect (`PubEff`, `RpcEff`: what is taken away, what is added under the next id, the outcome as a function of the next id); an unrelated call before
  it leaves the effect the same (`pub_after`, `rpc_after`), and effects that stay apart commute up to exchanging the two new ids. `C132_same_topic`
  and `C132_same_procedure` show that the conditions on topics and procedures are needed.
* C34, C43, C86, C87 exactly (`Props/DealerExact.lean`): an ERROR is accepted from anyone if the invocation is pending; YIELDs and ERRORs have
  the same outcome whether or not a session has left; when the dealer writes to a session that is not connected; which request ids it remembers.
* C133 (`Spec/Neighbours.lean`, `Props/Neighbours.lean`): C117 with the clients. `parted` and `partedRpc` break C117 down to single calls of the
  router; `Twins` relates the sessions of a client with and without the others (their tables name corresponding ids); `beside_step` and
  `beside_step_other` carry the relation between the two networks through one action. C117's proviso on the dealer follows from `ErrorsAnswer` of the
  clients (`informed_run`, `errorsApart_of_own`: an invocation id belongs to one caller, and an invocation never changes sides).
  `C133_errors_needed` shows that it is needed.
* C134 (`Spec/Newcomers.lean`, `Props/Newcomers.lean`): C118 with the clients, and for the dealer too, which does keep something of those who left
  (C118 is partial there). Those who were there and those who come are the two applications of C133 (`OwnPub`, `OwnRpc`, `beside_step`), except that
  both may use the same topics and procedures: `Split` says that the table mentions only those who left, nobody is known and nothing is held, so that no
  call of a newcomer finds any of it. `C134_ids_needed` shows what a session id used again brings about.
* C135 (`Spec/Visitors.lean`, `Props/Visitors.lean`): `Without q ops ops'` relates a history with visitors to one without in which the others do the
  same. No renaming of ids does: a topic keeps its id as long as anybody is subscribed, so one id with visitors may be two without. `Beside` compares
  the tables of C79 without ids; once the visitors have left, C128 gives the rest.
* C136 (`Props/Undone.lean`): pairs of calls that undo each other, by C128. False of a call answered with an ERROR.
* C137 (`Spec/Room.lean`, `Props/Room.lean`): how long a message can become on its way, from its contents alone. With it, the claims
  about the stack need no hypothesis about the bytes on their way (`NothingTooLong`), only one about what applications send
  (`SendsShort`). A sender that measures with its own serializer may be wrong: `C137_sender_cannot_tell`.
* C138 (`Spec/Flood.lean`, `Props/Flood.lean`): how many messages a client can be made to get. No hypotheses: it is about every
  schedule, with any messages and any serializers.
* C139 (`Spec/Asked.lean`, `Props/Asked.lean`): every message to a session id is owed to one from it. `OwedTo` says which request owes
  which message, with the id and the options that ask for it. Hypotheses: the schedule has at most 2^53 actions (ids are then fresh,
  C19/C30), and the router reads this client's messages as meant (`ReadBack`; a serializer that restores the values of its messages does, C81);
  nothing is assumed of the other clients. It does not say that an answer comes only once (C36 does), and it is about ids:
  a pending call of somebody who has left is still answered, to whoever has the id then (C87).
* C140 (`Spec/Tally.lean`, `Props/Tally.lean`): answers counted against requests, for each kind and request id, on the network of messages.
  No hypothesis on the clients; the schedule has at most 2^53 actions. What is counted is what the router has sent since the client
  connected, against what the session id has been asked to send ever, so it holds for ids that are used again, too.
* C141 (`Props/LastWord.lean`): nothing follows the answer, from the invariant of C140. Hypothesis: the session id has been asked to send
  one request of that kind with that id at most; with a second one its replies follow, of course. `Props/TallyBytes.lean` has C140 and C141
  for what applications are handed in the network on bytes (`handed`), by C81.
* C142 (`Spec/Overheard.lean`, `Props/Overheard.lean`): where contents come from (`MeantFor`), an invariant of the network of messages without
  hypotheses on the clients. It ties contents to a SUBSCRIBE, REGISTER or CALL that was sent at some time, not to one in force (C19, C20 and C31 do),
  and to session ids, not to clients. For an ERROR only that somebody sent it: the dealer does not check who sends an ERROR (`C142_errors_from_anybody`).
  `Props/OverheardBytes.lean` has it for what applications are handed in the network on bytes, by C81.
* C55 exactly (`C55_exact`): until the handshake is over, the WELCOME is sent for any valid signature under the announced key, over whatever.
* C128 exactly (`Props/PresentExact.lean`, `C128_dealer_exact`): dealers that cannot be told apart either way have the same present; three calls
  suffice to find out. That each side has as many calls in progress as the other is the one use of counting (`Finset.card`, Mathlib).
* C119, C75 exactly (`Spec/Wait.lean`, `Proofs/NetUnanswered.lean`, `Props/NetworkUnanswered.lean`): an invariant of every schedule
  ("under way or lost"), and one of every continuation ("waiting and not under way"); that the router answers a request only when it
  is asked is read off the tables of C79 and C80.
* C118 (`Spec/AsNew.lean`, `Props/AsNew.lean`): a router everybody has left, compared with a new one; by the same simulation as C117,
  started from the table that is left. At the dealer the table that is left need not be empty; `C118_dealer_exact` says that it is as
  good as new exactly if it is.
* C116 and C60 exactly (`Spec/Server.lean`, `Props/Server.lean`): a description of the server that remembers the challenged HELLO and
  nothing else; the acceptor with its eleven fields does the same, by simulation.
* C113 and C57 exactly (`Props/AcceptorExact.lean`): an acceptor with and without a message, side by side; they differ at most in the
  HELLO last seen, which is overwritten before it is used.
* C114 and C52 exactly (`Spec/SessionIds.lean`, `Props/SessionIds.lean`): the books of one session are those of the other by the new
  names; every call keeps it so.
* C69–C70 (helpers): case analysis over Python values; induction over the argument list.

## Trusted base

* **Lean's kernel** (Lean 4.33.0) and the Mathlib modules the files import one by one.
* **Axioms**: every theorem listed in `MANIFEST.json` depends on a subset of `propext`, `Classical.choice`,
  `Quot.sound`. No axiom is added; no `sorry`, `native_decide` or `bv_decide`. `tools/axioms.sh` runs
  `#print axioms` on every manifest theorem; its output is recorded per theorem in `AXIOMS.txt`.
* **The transcription**: that the definitions in `Verif/Model` say what the cited Python lines do. The code was
  read, never run. Every definition cites file and lines, so it can be compared line by line.
* **The vocabulary** in `Verif/Spec`, which gives the statements their meaning.

### Modelled code

| code | model | remarks |
|---|---|---|
| `messages/util.py:86-472`, `validation_spec.py` | `Model/Util.lean` | complete: every validator, `sanity_check`, `validate_message` |
| `messages/util.py:1-83`, `messages/exceptions.py`, `exception.py`, `messages/error.py` | `Model/Legacy.lean` | the `validate_*_or_raise` helpers with their message texts, `ApplicationError.__str__`, `Error.__str__` |
| `messages/{call,invocation,yield_,result}.py`, `auth/cryptosign.py` once more | `Model/Sharing.lean` | the same constructors, getters and `marshal` over dict objects with an address (see `Model/Messages.lean` for values) |
| `messages/*.py` (24 message classes) | `Model/Messages.lean` | `parse`, `marshal` of each class; the pair `XFields`/`X` is one structure |
| `serializers/serializer.py:43-75` | `Model/Messages.lean` | `to_message` |
| `serializers/json.py`, `cbor.py`, `msgpack.py` | `Model/Serializer.lean` | the wrapper; the codec is a parameter, except in C88–C92 |
| `json`, `msgpack`, `cbor2` (external; as documented, not in `/repo`) | `Model/Bytes.lean`, `Model/Encoding.lean` (`json.detect_encoding`), `Model/Json.lean`, `Model/MsgPack.lean`, `Model/Cbor.lean` | `dumps` and `loads` with default options. Not modelled: lone surrogates; extension types in MessagePack; tags other than big integers and two-byte simple values in CBOR; NaNs of 16 or 32 bits other than the usual one; limits on nesting depth and numbers of digits |
| `hmac.new(..., sha256)`, `hashlib.pbkdf2_hmac` | `Model/Hmac.lean` | over an arbitrary hash function (C105); a parameter elsewhere |
| `float(s)`, `repr(f)` of CPython (for `json`) | `Model/Float.lean` | correctly rounded reading, shortest text that reads back |
| `serializers/payload.py` | `Model/Serializer.lean` | complete |
| `transports/rawsocket.py` | `Model/RawSocket.lean` | complete |
| `idgen.py` | `Model/Idgen.lean` | generator complete; `generate_session_id` is an input |
| `types.py` | `Model/Types.lean` | complete |
| `broker.py` | `Model/Broker.lean` | complete |
| `dealer.py` | `Model/Dealer.lean` | complete |
| `session.py` | `Model/Session.lean` | complete |
| `auth/*.py` | `Model/Auth.lean` | requests, responses, the four client authenticators, wampcra and cryptosign helpers |
| `acceptor.py` | `Model/Acceptor.lean` | complete |
| `joiner.py` | `Model/Joiner.lean` | complete |

### Not modelled

* `json`, `cbor2`, `msgpack` (except in C88–C92, C94, C95, C100–C104, C106), `hmac`/`hashlib` (except in C105, where the hash function is the parameter), `nacl`, `random`, the clock: parameters (`Codec`, `Crypto`) or inputs of a
  call (`AuthEnv`). No theorem assumes more of them than its hypotheses say (e.g. `Carries c m`: this message survives
  `dumps`/`loads`).
* Abstract classes without code (`message.py`, `IServerAuthenticator`, `IClientAuthenticator`, `serializer.py:1-42`),
  re-exports (`__init__.py`), trivial `@property` getters, `TypeError` from Python for calls with the wrong arity.
* Threads: the library has no locks and no awaits; a method call is one atomic step.
* Object identity: two messages that share one dict or list object are two equal values. Exceptions:
  `Subscription`/`Registration`, whose sharing matters and is modelled by a heap; and the dicts into which the package writes
  after construction (`Model/Sharing.lean`, C83, C84).
* In the texts of exceptions: `repr` of instances of other classes (placeholders), escapes of unprintable
  characters outside ASCII, and the limit of 4300 digits for turning an int into text.
* Text of exceptions CPython itself raises (only the class is compared), hash collisions, memory limits, recursion limits.
* Strings with lone surrogates (`str.encode()` would raise).
* The transport around the library. `Spec/Network.lean` is such a program written for the theorems C67 onwards: FIFO
  channels that neither lose, copy nor reorder messages, and a router that makes for each message the API call that belongs
  to it. It is part of the statement of these theorems, not of the code.

## Where the code does not do what the property says

For each there is a theorem with a concrete witness, and the part that does hold is proved as `_partial`.

| property | what happens |
|---|---|
| C02 | `Abort.marshal` drops args and kwargs |
| C03 | the payload bytes of `Call`, `Invocation`, `Yield`, `Result` are never marshalled |
| C06 | `to_message([])` raises `IndexError` |
| C14 | message lengths are silently truncated modulo 2**24 in the message header |
| C16 | one non-zero reserved byte in a handshake is accepted (`and` where `or` is meant) |
| C25 | (only after 2**53 ids) the broker hands out an id that is still in use; a session that left stays a recipient |
| C32, C45 | when a caller reuses the request id of a pending call, the callee's YIELD makes the dealer raise `KeyError` half way |
| C34, C117 | an ERROR for an invocation is accepted from any session, not only the callee; a stranger can end a call of another application |
| C37 | continuing a progressive call that an ERROR ended emits an INVOCATION that cannot be answered |
| C40 | a continuation that names another procedure goes to another callee under the first callee's invocation id |
| C38 | (only after 2**53 ids) a CALL is given the id of an invocation that still waits for its answer; the answer goes to the later caller |
| C43 | calls to a callee that has left stay pending for ever |
| C46, C51 | an UNSUBSCRIBED/UNREGISTERED can be refused although its request is outstanding (when the same grant was withdrawn twice); such a refusal, and no other, leaves a trace |
| C50 | the session forgets a call on its first RESULT and an invocation on its first YIELD, progressive or not |
| C52 | a request is recorded before it is serialized; if the serializer fails it stays outstanding |
| C55 | the signed cryptosign message is not compared with the challenge: an old signature can be replayed |
| C57 | an ABORT sent because the authenticator said no does not end the handshake (it leaves no trace at all) |
| C60 | a received ABORT, and a cryptosign HELLO without authextra, raise `AttributeError` |
| C65 | the wampcra salt is never announced; `WAMPCRASaltedResponse.salt` recurses for ever |
| C69 | `validate_session_id_or_raise` accepts 0, although its comment says 1 to 2**53 |
| C72 | a callee that leaves takes the calls it was invoked for with it; the callers are never answered |
| C73 | the RESULT drops the payload of the YIELD; the INVOCATION keeps the payload of the CALL but says it is not binary |
| C75 | an UNSUBSCRIBE or UNREGISTER of something not held makes the router raise; no ERROR is sent, the client waits for ever |
| C83 | reading the options of a message with a payload serializer writes into the dict object it was given; other messages around that dict announce the serializer too |
| C84 | a cryptosign client writes its key into the dict it was given and keeps a key that is already there; two clients around one dict announce the key of the first |
| C86 | RESULT and ERROR are addressed to the caller although it has left; whoever is given its session id next receives them. Sessions never added can call |
| C87, C118 | pending calls of departed callers and callees are kept for ever; so is the request id of every call answered with ERROR. They show through when everybody has left and others come |
| C90 | dict keys that are not strings: JSON turns `1`, `None`, `True` into strings, so `{1: a, "1": b}` arrives with one entry; MessagePack writes integer keys that the receiver refuses (`strict_map_key`) |
| C91 | CBOR: what follows the first message in the data is silently ignored |
| C97 | the signature of WAMP-CRA is decoded leniently: foreign characters anywhere and any text after the padding are ignored, so one signature has many spellings |
| C99 | the last part of a progressive call is made a second invocation; the callee's answers to both are expected, the second raises KeyError |
| C105 | whoever has Bob's secret followed by NUL characters gets in as Bob: HMAC pads keys with zeros |
| C107 | clients answer challenges of methods they did not offer: a ticket is handed to a server that asks for a cryptosign signature |
| C136 | `receive_error` does not remove the caller's entry in `call_to_invocation_id`: a call answered with an ERROR leaves a trace |
| C68 | the session sends an invocation ERROR for anything; the dealer then rejects it, or another client's YIELD |

## Testing the model against the project's own tests

`Verif/Conformance/` transliterates the unit tests in `/repo/tests` into `example`s about the model, evaluated by the kernel
(`decide +kernel`). These are tests of the transcription, not proofs, and no claim rests on them: what the project's authors
observed of their code, the model does too. `Messages.lean` is written by `tools/gen_conformance.py`, which reads the test files
as text (865 asserts of 200 tests). `Crypto.lean` spells out SHA-2, HMAC, PBKDF2 and Ed25519 so that the vectors of
`tests/auth` can be evaluated; the theorems keep these primitives as a parameter. Tests that need a command line tool
(`tests/interoptests`) or the clock are left out; where a test draws random bytes, one draw is taken.

`tools/compare_json.py` compares `Model/Json.lean` with the `json` module of the Python at hand on random texts and values; they agree.

## Testing the theorems against wrong programs

`tools/mutate.py` copies the project, applies an edit to one model definition, rebuilds, replaces each proof that breaks,
and lists the theorems that fail. `seeded/LOG.jsonl` has one line per edit. A theorem that survives although its English
claim became false has to be tightened; that is noted in the line.

`seeded/batch*.json` are the edits, `seeded/result*.jsonl` the raw results. "Failed" means that the proof of the theorem, or
of a lemma it uses, no longer goes through; this is weaker than "the statement became false" (the second line of the log is
an edit no method can show). So a survivor is informative, a failure less so. Later lines have `broken_declarations`, where
the proofs stop first. An edit with `targets` in its batch was built only as far as these modules, so theorems elsewhere are not
in its list; edits of a batch that are in no result were overtaken by later batches and not run. `tools/automutate.py` makes small edits
mechanically at every place of the model and reports those with which everything still builds.

Texts of exceptions are modelled; C11, C69, C70 and C98 claim them, the other theorems only the class.
