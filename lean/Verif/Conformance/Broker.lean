import Verif.Model.Broker

/-!
# The package's own tests of the broker, run on the model — `tests/broker_test.py`

These are tests of the transcription (each is one execution, evaluated by the kernel), not proofs of a property: if the model
disagreed with what the project's test suite expects of the code, one of them would fail.  Each `example` is one test function;
the answers are written out in full where the test looks at a part of them only.
-/

namespace Wamp.Broker.Conformance
open Broker

private def details : SessionDetails := ⟨.int 1, "realm1", some "authid", some "authrole"⟩
private def topic : String := "io.xconn.test"
private def subscribe : Message := .subscribe ⟨.int 1, topic, []⟩
private def args : Option (List Value) := some [.int 1, .int 2, .int 3]
private def outcomes (ops : List Op) : List (Except Exc Out) := (trace ops).map (·.2)

/-- `test_add_and_remove_session` (`broker_test.py:8-25`) -/
example : outcomes [.addSession details, .addSession details, .removeSession 1, .removeSession 3] =
    [.ok .unit, .error (.valueError "cannot add session twice"), .ok .unit,
      .error (.valueError "cannot remove non-existing session")] := by decide +kernel

/-- `test_subscribing_to_topic` (`broker_test.py:28-49`) -/
example : outcomes [.addSession details, .receiveMessage 1 subscribe, .hasSubscription topic, .receiveMessage 3 subscribe] =
    [.ok .unit, .ok (.reply ⟨.subscribed ⟨.int 1, .int 1⟩, 1⟩), .ok (.bool true),
      .error (.valueError "cannot subscribe, session 3 doesn't exist")] := by decide +kernel

/-- `test_unsubscribing_from_topic` (`broker_test.py:52-87`) -/
example : outcomes [.addSession details, .receiveMessage 1 subscribe, .receiveMessage 1 (.unsubscribe ⟨.int 1, .int 1⟩),
      .hasSubscription topic, .receiveMessage 2 (.unsubscribe ⟨.int 1, .int 1⟩), .receiveMessage 1 (.unsubscribe ⟨.int 1, .int 2⟩),
      .receiveMessage 1 (.unsubscribe ⟨.int 1, .int 2⟩)] =
    [.ok .unit, .ok (.reply ⟨.subscribed ⟨.int 1, .int 1⟩, 1⟩), .ok (.reply ⟨.unsubscribed ⟨.int 1⟩, 1⟩), .ok (.bool false),
      .error (.valueError "cannot unsubscribe, session 2 doesn't exist"),
      .error (.valueError "cannot unsubscribe, subscription 2 doesn't exist"),
      .error (.valueError "cannot unsubscribe, subscription 2 doesn't exist")] := by decide +kernel

/-- `test_receive_invalid_message` (`broker_test.py:90-97`) -/
example : outcomes [.receiveMessage 1 (.call { requestId := .int 1, procedure := topic })] =
    [.error (.valueError "message type not supported")] := by decide +kernel

/-- `test_publishing_to_topic` (`broker_test.py:100-138`) -/
example : outcomes [.addSession details, .receiveMessage 1 subscribe, .receivePublish 1 ⟨.int 1, topic, args, none, []⟩,
      .receivePublish 1 ⟨.int 2, "topic1", args, none, []⟩,
      .receivePublish 1 ⟨.int 2, topic, args, none, [(.str "acknowledge", .bool true)]⟩,
      .receivePublish 5 ⟨.int 1, topic, args, none, []⟩] =
    [.ok .unit, .ok (.reply ⟨.subscribed ⟨.int 1, .int 1⟩, 1⟩),
      .ok (.publication ⟨some ⟨.int 1, .int 2, args, none, []⟩, [1], none⟩),
      .ok (.publication ⟨none, [], none⟩),
      .ok (.publication ⟨some ⟨.int 1, .int 4, args, none, []⟩, [1], some ⟨.published ⟨.int 2, .int 4⟩, 1⟩⟩),
      .error (.valueError "cannot publish, session 5 doesn't exist")] := by decide +kernel

end Wamp.Broker.Conformance
