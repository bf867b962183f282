import Verif.Model.Session
import Verif.Model.Json

/-!
# The package's own tests of the session, run on the model — `tests/test_session.py`

As `Conformance/Broker.lean`: tests of the transcription, not proofs of a property.  The serializer is the modelled `json`.
-/

namespace Wamp.WAMPSession.Conformance
open WAMPSession

private def outcomes (ops : List (Op String)) : List (Except Exc (Out String)) := (trace Json.codec ops).map (·.2)
private def sent (text : String) : Except Exc (Out String) := .ok (.data text)
private def got (m : Message) : Except Exc (Out String) := .ok (.msg m)
private def raised (text : String) : Except Exc (Out String) := .error (.valueError text)
private def errorFor (type_ request : Int) (uri : String) : Message := .error ⟨.int type_, .int request, uri, none, none, []⟩
deriving instance DecidableEq for Out

private def foobar : List (Op String) :=
  [.sendMessage (.register ⟨.int 1, "foo.bar", []⟩), .receiveMessage (.registered ⟨.int 1, .int 1⟩)]

/-- `test_register` (`test_session.py:22-30`) -/
example : outcomes [.sendMessage (.register ⟨.int 2, "io.xconn.test", []⟩), .receiveMessage (.registered ⟨.int 2, .int 3⟩)] =
    [sent "[64, 2, {}, \"io.xconn.test\"]", got (.registered ⟨.int 2, .int 3⟩)] := by decide +kernel

/-- `test_register_error` (`test_session.py:33-42`) -/
example : outcomes [.sendMessage (.register ⟨.int 2, "io.xconn.test", []⟩),
      .receiveMessage (errorFor 64 2 "wamp.error.invalid_argument")] =
    [sent "[64, 2, {}, \"io.xconn.test\"]", got (errorFor 64 2 "wamp.error.invalid_argument")] := by decide +kernel

/-- `test_call` (`test_session.py:45-59`) -/
example : (outcomes (foobar ++ [.sendMessage (.call { requestId := .int 2, procedure := "foo.bar" }),
      .receiveMessage (.invocation { requestId := .int 2, registrationId := .int 1 }),
      .sendMessage (.yield_ { requestId := .int 2 }), .receiveMessage (.result { requestId := .int 2 })])).drop 2 =
    [sent "[48, 2, {}, \"foo.bar\"]", got (.invocation { requestId := .int 2, registrationId := .int 1 }), sent "[70, 2, {}]",
      got (.result { requestId := .int 2 })] := by decide +kernel

/-- `test_call_error` (`test_session.py:62-70`) -/
example : outcomes [.sendMessage (.call { requestId := .int 1, procedure := "io.xconn.test" }),
      .receiveMessage (errorFor 48 1 "wamp.error.invalid_argument")] =
    [sent "[48, 1, {}, \"io.xconn.test\"]", got (errorFor 48 1 "wamp.error.invalid_argument")] := by decide +kernel

/-- `test_unregister` (`test_session.py:73-81`) -/
example : (outcomes (foobar ++ [.sendMessage (.unregister ⟨.int 1, .int 1⟩), .receiveMessage (.unregistered ⟨.int 1⟩)])).drop 2 =
    [sent "[66, 1, 1]", got (.unregistered ⟨.int 1⟩)] := by decide +kernel

/-- `test_unregister_error` (`test_session.py:84-93`) -/
example : outcomes [.sendMessage (.unregister ⟨.int 3, .int 3⟩), .receiveMessage (errorFor 66 3 "wamp.error.invalid_argument")] =
    [sent "[66, 3, 3]", got (errorFor 66 3 "wamp.error.invalid_argument")] := by decide +kernel

/-- `test_subscribe` (`test_session.py:96-107`) -/
example : outcomes [.sendMessage (.subscribe ⟨.int 7, "topic", []⟩), .receiveMessage (.subscribed ⟨.int 7, .int 8⟩),
      .receiveMessage (.event ⟨.int 8, .int 6, none, none, []⟩)] =
    [sent "[32, 7, {}, \"topic\"]", got (.subscribed ⟨.int 7, .int 8⟩), got (.event ⟨.int 8, .int 6, none, none, []⟩)] := by
  decide +kernel

/-- `test_subscribe_error` (`test_session.py:110-119`) -/
example : outcomes [.sendMessage (.subscribe ⟨.int 7, "topic", []⟩), .receiveMessage (errorFor 32 7 "wamp.error.invalid_uri")] =
    [sent "[32, 7, {}, \"topic\"]", got (errorFor 32 7 "wamp.error.invalid_uri")] := by decide +kernel

/-- `test_unsubscribe` (`test_session.py:122-135`) -/
example : (outcomes [.sendMessage (.subscribe ⟨.int 7, "topic", []⟩), .receiveMessage (.subscribed ⟨.int 7, .int 8⟩),
      .sendMessage (.unsubscribe ⟨.int 8, .int 8⟩), .receiveMessage (.unsubscribed ⟨.int 8⟩)]).drop 2 =
    [sent "[34, 8, 8]", got (.unsubscribed ⟨.int 8⟩)] := by decide +kernel

/-- `test_unsubscribe_error` (`test_session.py:138-147`) -/
example : outcomes [.sendMessage (.unsubscribe ⟨.int 8, .int 8⟩), .receiveMessage (errorFor 34 8 "wamp.error.invalid_uri")] =
    [sent "[34, 8, 8]", got (errorFor 34 8 "wamp.error.invalid_uri")] := by decide +kernel

private def publish : Message := .publish ⟨.int 6, "topic", none, none, [(.str "acknowledge", .bool true)]⟩

/-- `test_publish` (`test_session.py:150-160`) -/
example : outcomes [.sendMessage publish, .receiveMessage (.published ⟨.int 6, .int 6⟩)] =
    [sent "[16, 6, {\"acknowledge\": true}, \"topic\"]", got (.published ⟨.int 6, .int 6⟩)] := by decide +kernel

/-- `test_publish_error` (`test_session.py:163-170`) -/
example : (outcomes [.sendMessage publish, .receiveMessage (errorFor 16 6 "wamp.error.invalid_uri")]).drop 1 =
    [got (errorFor 16 6 "wamp.error.invalid_uri")] := by decide +kernel

/-- `test_error` (`test_session.py:173-180`) -/
example : outcomes [.sendMessage (errorFor 68 10 "wamp.error.procedure_already_exists")] =
    [sent "[8, 68, 10, {}, \"wamp.error.procedure_already_exists\"]"] := by decide +kernel

/-- `test_exceptions` (`test_session.py:183-263`) -/
example : outcomes [.sendMessage (.yield_ { requestId := .int 5 }), .sendMessage (errorFor 64 10 "uris.PROCEDURE_ALREADY_EXISTS"),
      .sendMessage (.registered ⟨.int 11, .int 12⟩), .receiveMessage (.register ⟨.int 100, "io.xconn.test", []⟩),
      .receiveMessage (errorFor 65 100 "wamp.error.invalid_argument"), .receiveMessage (errorFor 48 100 "wamp.error.invalid_argument"),
      .receiveMessage (errorFor 64 100 "wamp.error.invalid_argument"), .receiveMessage (errorFor 66 100 "wamp.error.invalid_argument"),
      .receiveMessage (errorFor 32 100 "wamp.error.invalid_argument"), .receiveMessage (errorFor 34 100 "wamp.error.invalid_argument"),
      .receiveMessage (errorFor 16 100 "wamp.error.invalid_argument")] =
    [raised "cannot yield for unknown invocation request", raised "send only supported for invocation error",
      raised "unknown message type <class 'wampproto.messages.registered.Registered'>",
      raised "unknown message <class 'wampproto.messages.register.Register'>",
      raised "unknown error message type <class 'wampproto.messages.error.Error'>",
      raised "received ERROR for invalid call request", raised "received ERROR for invalid register request",
      raised "received ERROR for invalid unregister request", raised "received ERROR for invalid subscribe request",
      raised "received ERROR for invalid unsubscribe request", raised "received ERROR for invalid publish request"] := by
  decide +kernel

end Wamp.WAMPSession.Conformance
