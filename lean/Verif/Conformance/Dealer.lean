import Verif.Model.Dealer

/-!
# The package's own tests of the dealer, run on the model — `tests/dealer_test.py`

As `Conformance/Broker.lean`: tests of the transcription, not proofs of a property.
-/

namespace Wamp.Dealer.Conformance
open Dealer

private def details : SessionDetails := ⟨.int 1, "realm1", some "authid", some "authrole"⟩
private def callee : SessionDetails := ⟨.int 1, "realm1", some "authid", some "authrole"⟩
private def caller : SessionDetails := ⟨.int 2, "realm1", some "authid", some "authrole"⟩
private def proc : String := "io.xconn.test"
private def register : Message := .register ⟨.int 1, proc, []⟩
private def outcomes (ops : List Op) : List (Except Exc Out) := (trace ops).map (·.2)

/-- `test_add_and_remove_session` (`dealer_test.py:8-26`) -/
example : outcomes [.addSession details, .addSession details, .removeSession 1, .removeSession 3] =
    [.ok .unit, .error (.valueError "cannot add session twice"), .ok .unit,
      .error (.valueError "cannot remove non-existing session")] := by decide +kernel

/-- `test_register_procedure` (`dealer_test.py:29-60`) -/
example : outcomes [.addSession details, .receiveMessage 1 register, .hasRegistration proc, .receiveMessage 2 register,
      .receiveMessage 1 register] =
    [.ok .unit, .ok (.reply ⟨.registered ⟨.int 1, .int 1⟩, 1⟩), .ok (.bool true),
      .error (.valueError "cannot register, session 2 doesn't exist"),
      .ok (.reply ⟨.error ⟨.int 64, .int 1, "wamp.error.procedure_already_exists", none, none, []⟩, 1⟩)] := by decide +kernel

private def call : Message := .call { requestId := .int 2, procedure := proc }

/-- `test_call_procedure_and_receive_yield` (`dealer_test.py:63-104`) -/
example : outcomes [.addSession details, .receiveMessage 1 register, .receiveMessage 1 call,
      .receiveMessage 1 (.call { requestId := .int 3, procedure := "invalid" }),
      .receiveMessage 1 (.yield_ { requestId := .int 2 }), .receiveMessage 1 (.yield_ { requestId := .int 2 }),
      .receiveMessage 1 call, .receiveMessage 3 (.yield_ { requestId := .int 3 })] =
    [.ok .unit, .ok (.reply ⟨.registered ⟨.int 1, .int 1⟩, 1⟩),
      .ok (.reply ⟨.invocation { requestId := .int 2, registrationId := .int 1 }, 1⟩),
      .ok (.reply ⟨.error ⟨.int 48, .int 3, "wamp.error.no_such_procedure", none, none, []⟩, 1⟩),
      .ok (.reply ⟨.result { requestId := .int 2 }, 1⟩),
      .error (.valueError "no pending calls for session 1"),
      .ok (.reply ⟨.invocation { requestId := .int 3, registrationId := .int 1 }, 1⟩),
      .error (.valueError "received unexpected yield from session=3")] := by decide +kernel

/-- `test_unregister_procedure_not_registered` (`dealer_test.py:107-116`) -/
example : outcomes [.addSession details, .receiveMessage 1 (.unregister ⟨.int 1, .int 1⟩)] =
    [.ok .unit, .error (.valueError "cannot unregister, session 1 haven't registered for 1")] := by decide +kernel

/-- `test_unregister_procedure` (`dealer_test.py:119-149`) -/
example : outcomes [.addSession details, .receiveMessage 1 register, .receiveMessage 1 (.unregister ⟨.int 2, .int 1⟩),
      .hasRegistration proc, .receiveMessage 2 (.unregister ⟨.int 2, .int 1⟩), .receiveMessage 1 (.unregister ⟨.int 3, .int 3⟩)] =
    [.ok .unit, .ok (.reply ⟨.registered ⟨.int 1, .int 1⟩, 1⟩), .ok (.reply ⟨.unregistered ⟨.int 2⟩, 1⟩), .ok (.bool false),
      .error (.valueError "cannot unregister, session 2 doesn't exist"),
      .error (.valueError "cannot unregister, session 1 haven't registered for 3")] := by decide +kernel

/-- `test_receive_invalid_message` (`dealer_test.py:152-160`) -/
example : outcomes [.receiveMessage 1 (.subscribe ⟨.int 1, proc, []⟩)] =
    [.error (.valueError "message type not supported")] := by decide +kernel

private def setup : List Op := [.addSession callee, .addSession caller, .receiveMessage 1 (.register ⟨.int 1, "foo.bar", []⟩)]

/-- `test_progressive_call_results` (`dealer_test.py:163-195`).  From the second progressive result on, the test answers with
the request id of the *result*; it is 2, as is the id of the invocation. -/
example :
    let call : Op := .receiveMessage 2 (.call ⟨.int 2, "foo.bar", none, none, [(.str "receive_progress", .bool true)], none, none, false⟩)
    let progress : Op := .receiveMessage 1 (.yield_ { requestId := .int 2, options_ := [(.str "progress", .bool true)] })
    let final : Op := .receiveMessage 1 (.yield_ { requestId := .int 2 })
    outcomes (setup ++ [call] ++ List.replicate 10 progress ++ [final, final]) =
      [.ok .unit, .ok .unit, .ok (.reply ⟨.registered ⟨.int 1, .int 1⟩, 1⟩),
        .ok (.reply ⟨.invocation ⟨.int 2, .int 1, none, none, [(.str "receive_progress", .bool true)], none, none, false⟩, 1⟩)] ++
      List.replicate 10 (.ok (.reply ⟨.result { requestId := .int 2, details_ := [(.str "progress", .bool true)] }, 2⟩)) ++
      [.ok (.reply ⟨.result { requestId := .int 2 }, 2⟩), .error (.valueError "no pending calls for session 1")] := by
  decide +kernel

/-- `test_progressive_call_invocations` (`dealer_test.py:198-224`).  The test does not look at the id of the last invocation: it
is a new one (C99). -/
example :
    let call : Op := .receiveMessage 2 (.call ⟨.int 2, "foo.bar", none, none, [(.str "progress", .bool true)], none, none, false⟩)
    let final : Op := .receiveMessage 2 (.call { requestId := .int 2, procedure := "foo.bar" })
    outcomes (setup ++ List.replicate 11 call ++ [final]) =
      [.ok .unit, .ok .unit, .ok (.reply ⟨.registered ⟨.int 1, .int 1⟩, 1⟩)] ++
      List.replicate 11 (.ok (.reply ⟨.invocation ⟨.int 2, .int 1, none, none, [(.str "progress", .bool true)], none, none, false⟩, 1⟩)) ++
      [.ok (.reply ⟨.invocation { requestId := .int 3, registrationId := .int 1 }, 1⟩)] := by
  decide +kernel

end Wamp.Dealer.Conformance
