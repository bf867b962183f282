import Verif.Conformance.Crypto
import Verif.Model.Acceptor
import Verif.Model.Joiner
import Verif.Model.Cbor
import Verif.Model.MsgPack

/-!
# The package's own tests of serializers, authentication and handshakes, run on the model

`tests/serializers/test_{json,cbor,msgpack,serializer}.py`, `tests/auth/*.py`, `tests/joiner_test.py`.  As
`Conformance/Broker.lean`: tests of the transcription, not proofs of a property.  The primitives are those of
`Conformance/Crypto.lean`.  Left out: `test_utcnow`, which is about the clock.
-/

namespace Wamp.Conformance

/-! ## Serializers -/

private def roundTrip {W : Type} (c : Codec W) (v : Value) : Except Exc Bool := do
  let hello ← Hello.parse v
  let data ← c.serialize (.hello hello)
  match ← c.deserialize data with
  | .hello obj => return obj.realm = hello.realm ∧ obj.roles = hello.roles
  | _ => return false

private def hello (role : String) : Value := .list [.int 1, .str "realm1", .dict [(.str "roles", .dict [(.str role, .dict [])])]]

/-- `test_serializer` (`test_json.py:5-15`, `test_cbor.py:4-14`, `test_msgpack.py:5-15`) -/
example : roundTrip Json.codec (hello "callee") = .ok true := by decide +kernel
example : roundTrip Cbor.codec (hello "caller") = .ok true := by decide +kernel
example : roundTrip MsgPack.codec (hello "callee") = .ok true := by decide +kernel

/-- `test_to_message_with_invalid_type` (`test_serializer.py:6-11`) -/
example : toMessage (.str "Hello World!") = .error (.typeError "invalid type '<class 'str'>', expected a list") := by decide +kernel
/-- `test_to_message_with_invalid_message_type` (`test_serializer.py:14-19`) -/
example : toMessage (.list [.str "hi"]) = .error (.typeError "invalid message type '<class 'str'>', expected an integer") := by
  decide +kernel
/-- `test_to_message_with_invalid_case` (`test_serializer.py:22-26`) -/
example : toMessage (.list [.int 999]) = .error (.valueError "unknown message type") := by decide +kernel

private def callee : PyDict := [(.str "callee", .dict [])]
private def said (t : String) : PyDict := [(.str "message", .str t)]

/-- `test_to_message_with_hello` to `test_to_message_with_goodbye` (`test_serializer.py:29-74`) -/
example : toMessage (.list [.int 1, .str "realm1", .dict [(.str "roles", .dict callee)]]) =
    .ok (.hello { realm := "realm1", roles := callee }) := by decide +kernel
example : toMessage (.list [.int 2, .int 231, .dict [(.str "roles", .dict callee)]]) =
    .ok (.welcome { sessionId := .int 231, roles := callee }) := by decide +kernel
example : toMessage (.list [.int 3, .dict (said "The realm does not exist."), .str "wamp.error.no_such_realm"]) =
    .ok (.abort ⟨said "The realm does not exist.", "wamp.error.no_such_realm", none, none⟩) := by decide +kernel
example : toMessage (.list [.int 4, .str "cryptosign", .dict [(.str "channel_binding", .str "tls-unique")]]) =
    .ok (.challenge ⟨"cryptosign", [(.str "channel_binding", .str "tls-unique")]⟩) := by decide +kernel
example : toMessage (.list [.int 5, .str "signature", .dict [(.str "channel_binding", .str "null")]]) =
    .ok (.authenticate ⟨"signature", [(.str "channel_binding", .str "null")]⟩) := by decide +kernel
example : toMessage (.list [.int 6, .dict (said "The host is shutting down now."), .str "wamp.close.system_shutdown"]) =
    .ok (.goodbye ⟨said "The host is shutting down now.", "wamp.close.system_shutdown"⟩) := by decide +kernel

/-! ## Authentication -/

/-- `test_authenticator` (`anonymous_test.py:8-19`) -/
example : let au := anonymousAuthenticator "authID" (some [(.str "extra", .str "data")])
    (au.authid, au.authExtra, au.authMethod, au.authenticate ⟨au.authMethod, [(.str "challenge", .str "test")]⟩) =
      (some "authID", [(.str "extra", .str "data")], "anonymous", .error .notImplementedError) := by decide +kernel

private def privateKeyHex := "c7e8c1f8f16ec37f53ed153f8afb7f18469b051f1d24dbea2097a2a104b2e9db"
private def publicKeyHex := "c53e4f2756a52ca1ed5cd00da108b3ed7bcffe6294e78283521e5102824f52d3"
private def signChallenge := "a1d483092ec08960fedbaed2bc1d411568a59077b794210e251bd3abb1563f7c"
private def signSignature := "01d4b7a515b1023196e2bbb57c5202da72088f99a17eaeed62ba97ebf93381b92" ++
  "a3e8430154667e194d971fb41b090a9338b92021c39271e910a8ea072fe950c"

/-- `test_authenticate` (`cryptosign_test.py:18-28`) -/
example : (do
    let au ← cryptosignAuthenticator crypto "authID" privateKeyHex none
    let a ← au.authenticate ⟨"cryptosign", [(.str "challenge", .str signChallenge)]⟩
    return (au.authid, PyDict.get? au.authExtra "pubkey", a.signature)) =
      (.ok (some "authID", some (.str publicKeyHex), signSignature ++ signChallenge) : Except Exc _) := by decide +kernel
/-- `test_generate_cryptosign_challenge` (`cryptosign_test.py:31-34`), for one draw -/
example : (generateCryptosignChallenge (toBE 32 (2 ^ 255 - 19))).length = 64 := by decide +kernel
/-- `test_sign_cryptosign_challenge` (`cryptosign_test.py:37-39`) -/
example : (do signCryptosignChallenge crypto (.str signChallenge) (← unhexlify privateKeyHex)) =
    .ok (signSignature ++ signChallenge) := by decide +kernel
/-- `test_verify_cryptosign_signature` (`cryptosign_test.py:42-44`) -/
example : (do verifyCryptosignSignature crypto (signSignature ++ signChallenge) (← unhexlify publicKeyHex)) = .ok true := by
  decide +kernel

private def craChallenge := "{\"nonce\":\"cdcb3b12d56e12825be99f38f55ba43f\",\"authprovider\":\"provider\",\"authid\":\"foo\"," ++
  "\"authrole\":\"admin\",\"authmethod\":\"wampcra\",\"session\":123,\"timestamp\":\"2024-05-07T09:25:13.307Z\"}"
private def craKey := "6d9b906ad60d1f4dd796dbadcc2e2252310565ccdc6fe10b289df5684faf2a46"
private def validSignature := "DIVL3bKs/Ei91eQyYznzUqEsiTmX705BNEXuicNpi8A="

/-- `test_authenticate` (`wampcra_test.py:17-22`) -/
example : (wampcraAuthenticator crypto "authID" craKey (some [])).authenticate ⟨"wampcra", [(.str "challenge", .str craChallenge)]⟩ =
    .ok ⟨validSignature, []⟩ := by decide +kernel
/-- `test_generate_wampcra_challenge` (`wampcra_test.py:36-52`), for one draw and time -/
example : Json.loads (generateWampcraChallenge (toBE 16 255) "2024-05-07T09:25:13.307Z" (.int 123) (some "john") (some "admin") "provider") =
    .ok (.dict [(.str "nonce", .str "000000000000000000000000000000ff"), (.str "authprovider", .str "provider"),
      (.str "authid", .str "john"), (.str "authrole", .str "admin"), (.str "authmethod", .str "wampcra"), (.str "session", .int 123),
      (.str "timestamp", .str "2024-05-07T09:25:13.307Z")]) := by decide +kernel
/-- `test_sign_wampcra_challenge` (`wampcra_test.py:55-57`) -/
example : signWampcraChallenge crypto craChallenge (utf8 craKey) = validSignature := by decide +kernel
/-- `test_verify_wampcra_signature` (`wampcra_test.py:60-62`) -/
example : verifyWampcraSignature crypto validSignature craChallenge (utf8 craKey) = .ok true := by decide +kernel
/-- `test_verify_invalid_wampcra_signature` (`wampcra_test.py:65-68`) -/
example : verifyWampcraSignature crypto "invalid_signature" craChallenge (utf8 craKey) = .ok false := by decide +kernel

/-! ## Handshakes -/

/-- `Authenticator` (`joiner_test.py:8-21`), with a draw and a time. -/
private def env : AuthEnv where
  authenticate
    | .anonymous _ authid _ => .ok (.plain authid (some "anonymous"))
    | .ticket _ authid _ _ => .ok (.plain authid (some "anonymous"))
    | .wampcra _ authid _ => .ok (.cra authid (some "anonymous") "password")
    | .cryptosign _ authid _ _ => .ok (.plain authid (some "anonymous"))
  nonce := toBE 16 255
  now := "2024-05-07T09:25:13.307Z"
  raw := toBE 32 (2 ^ 255 - 19)

/-- `test_join_no_auth` (`joiner_test.py:24-52`) -/
private def joinNoAuth {W : Type} (c : Codec W) : Except Exc (Bool × Bool × Bool) := do
  let au := anonymousAuthenticator "anonymous" (some [])
  let (j, hello) := (Joiner.init "realm1").sendHello c au none
  let (a, reply) := (Acceptor.init false none (.int 123456)).receive c crypto env (← hello)
  let (data, final) ← reply
  let (j, data) := j.receive c au data
  return (final, (← data).isNone, (← a.getSessionDetails).eq (← j.getSessionDetails))

example : joinNoAuth Json.codec = .ok (true, true, true) := by decide +kernel
example : joinNoAuth Cbor.codec = .ok (true, true, true) := by decide +kernel
example : joinNoAuth MsgPack.codec = .ok (true, true, true) := by decide +kernel

/-- `test_join_auth` (`joiner_test.py:55-95`) -/
private def joinAuth {W : Type} (c : Codec W) (au : ClientAuthenticator) : Except Exc (Bool × Bool × Bool × Bool × Bool) := do
  let (j, hello) := (Joiner.init "realm1").sendHello c au none
  let (a, reply) := (Acceptor.init true none (.int 123456)).receive c crypto env (← hello)
  let (data, final) ← reply
  let (j, data) := j.receive c au data
  match ← data with
  | none => return (final, false, false, false, false)
  | some data =>
    let (a, reply) := a.receive c crypto env data
    let (data, final') ← reply
    let (j, data) := j.receive c au data
    return (final, true, final', (← data).isNone, (← a.getSessionDetails).eq (← j.getSessionDetails))

example : joinAuth Json.codec (ticketAuthenticator "anonymous" "ticket" (some [])) = .ok (false, true, true, true, true) := by
  decide +kernel
example : joinAuth MsgPack.codec (wampcraAuthenticator crypto "anonymous" "password" (some [])) = .ok (false, true, true, true, true) := by
  decide +kernel
example : (cryptosignAuthenticator crypto "anonymous" "49fe40797d16012c92004a19cdd217a2b74ac825e3855d445c455988d70c8973" (some [])).bind
    (joinAuth Cbor.codec) = .ok (false, true, true, true, true) := by
  decide +kernel

end Wamp.Conformance
