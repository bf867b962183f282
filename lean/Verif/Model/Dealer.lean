import Verif.Model.Types
import Verif.Model.Dict
import Verif.Model.Idgen
import Verif.Model.Broker

/-!
# Dealer — `wampproto/dealer.py`

`Registration` objects are shared between `registrations_by_procedure` and the per-session dicts, so they live in an
explicit heap, as in the model of the broker.  `PendingInvocation` objects are never mutated or shared and are values.
Session ids are represented by their numeric value; dict keys that are request ids by `PyInt.val` (Python compares and
hashes `True` and `1` alike), while messages keep the object they were given.
-/

namespace Wamp

/-- `OPTION_RECEIVE_PROGRESS` (`dealer.py:5`) -/
def OPTION_RECEIVE_PROGRESS : String := "receive_progress"
/-- `OPTION_PROGRESS` (`dealer.py:6`) -/
def OPTION_PROGRESS : String := "progress"

/-- `PendingInvocation` (`dealer.py:9-15`); the two flags hold whatever object the options held. -/
structure PendingInvocation where
  requestId : PyInt
  callerId : Int
  calleeId : Int
  progress : Value
  receiveProgress : Value
  deriving DecidableEq, Repr

/-- `Registration` (`dealer.py:18-23`); `invocation_policy` is never set or read. -/
structure Registration where
  id : Int
  procedure : String
  registrants : Dict Int Int

/-- `Dealer` (`dealer.py:26-34`) -/
structure Dealer where
  heap : Ref → Registration
  nextRef : Ref
  registrationsByProcedure : Dict String Ref
  registrationsBySession : Dict Int (Dict Int Ref)
  pendingCalls : Dict Int PendingInvocation
  callToInvocationId : Dict (Int × Int) Int
  sessions : Dict Int SessionDetails
  idgen : IdGen

namespace Dealer

/-- `Dealer.__init__` (`dealer.py:27-34`) -/
def init : Dealer := ⟨fun _ => ⟨0, "", .empty⟩, 0, .empty, .empty, .empty, .empty, .empty, {}⟩

/-- Write to the object behind a reference. -/
def write (b : Dealer) (r : Ref) (o : Registration) : Dealer :=
  { b with heap := fun r' => if r' = r then o else b.heap r' }

/-- Create an object. -/
def alloc (b : Dealer) (o : Registration) : Dealer × Ref :=
  ({ b with heap := fun r' => if r' = b.nextRef then o else b.heap r', nextRef := b.nextRef + 1 }, b.nextRef)

/-- `add_session` (`dealer.py:36-41`) -/
def addSession (b : Dealer) (details : SessionDetails) : Dealer × Except Exc Unit :=
  if b.registrationsBySession.contains details.sessionId.val then (b, .error (.valueError "cannot add session twice"))
  else
    ({ b with
        registrationsBySession := b.registrationsBySession.set details.sessionId.val .empty
        sessions := b.sessions.set details.sessionId.val details }, .ok ())

/-- The loop of `remove_session` (`dealer.py:48-54`) over the items popped from the session's dict. -/
def removeLoop (b : Dealer) (sid : Int) : List (Int × Ref) → Dealer × Except Exc Unit
  | [] => (b, .ok ())
  | (_, reg) :: rest =>
    match b.registrationsByProcedure.get (b.heap reg).procedure with
    | none => (b, .error .keyError)
    | some r =>
      let o := b.heap r
      let o := if o.registrants.contains sid then { o with registrants := o.registrants.del sid } else o
      let b := b.write r o
      if o.registrants.size = 0 ∧ ¬ b.registrationsByProcedure.contains o.procedure then (b, .error .keyError)
      else
        let b := if o.registrants.size = 0 then
            { b with registrationsByProcedure := b.registrationsByProcedure.del o.procedure } else b
        removeLoop b sid rest

/-- `remove_session` (`dealer.py:43-56`) -/
def removeSession (b : Dealer) (sid : Int) : Dealer × Except Exc Unit :=
  match b.registrationsBySession.get sid with
  | none => (b, .error (.valueError "cannot remove non-existing session"))
  | some registrations =>
    let b := { b with registrationsBySession := b.registrationsBySession.del sid }
    match b.removeLoop sid registrations.items with
    | (b, .error e) => (b, .error e)
    | (b, .ok ()) =>
      if b.sessions.contains sid then ({ b with sessions := b.sessions.del sid }, .ok ())
      else (b, .error .keyError)

/-- `has_registration` (`dealer.py:58-59`) -/
def hasRegistration (b : Dealer) (procedure : String) : Bool := b.registrationsByProcedure.contains procedure

/-- `_add_call` (`dealer.py:61-65`) -/
def addCall (b : Dealer) (callId : PyInt) (invocationId callerId calleeId : Int) (progress receiveProgress : Value) : Dealer :=
  { b with
    pendingCalls := b.pendingCalls.set invocationId ⟨callId, callerId, calleeId, progress, receiveProgress⟩
    callToInvocationId := b.callToInvocationId.set (callerId, callId.val) invocationId }

/-- The first key of `registration.registrants`, 0 if there is none (`dealer.py:76-79`). -/
def firstRegistrant (o : Registration) : Int :=
  match o.registrants.keys with
  | [] => 0
  | s :: _ => s

/-- The CALL branch of `receive_message` (`dealer.py:68-111`) -/
def receiveCall (b : Dealer) (sid : Int) (m : Call) : Dealer × Except Exc MessageWithRecipient :=
  match b.registrationsByProcedure.get m.procedure with
  | none =>
    (b, .ok ⟨.error { messageType := .int Call.TYPE, requestId := m.requestId, uri := "wamp.error.no_such_procedure" }, sid⟩)
  | some r =>
    let registration := b.heap r
    let calleeId := firstRegistrant registration
    let receiveProgress := (PyDict.get? m.options OPTION_RECEIVE_PROGRESS).getD (.bool false)
    let progress := (PyDict.get? m.options OPTION_PROGRESS).getD (.bool false)
    let (b, invocationId) : Dealer × Int :=
      if progress.truthy then
        match b.callToInvocationId.get (sid, m.requestId.val) with
        | some i => (b, i)
        | none =>
          let (g, i) := b.idgen.next
          (({ b with idgen := g }).addCall m.requestId i sid calleeId progress receiveProgress, i)
      else
        let (g, i) := b.idgen.next
        (({ b with idgen := g }).addCall m.requestId i sid calleeId progress receiveProgress, i)
    let details : PyDict := []
    let details := if receiveProgress.truthy then PyDict.set details OPTION_RECEIVE_PROGRESS (.bool true) else details
    let details := if progress.truthy then PyDict.set details OPTION_PROGRESS (.bool true) else details
    (b, .ok ⟨.invocation { requestId := .int invocationId, registrationId := .int registration.id, args := m.args,
                           kwargs := m.kwargs, details_ := details, payload := m.payload, serializer := m.serializer },
             calleeId⟩)

/-- The YIELD branch of `receive_message` (`dealer.py:112-134`) -/
def receiveYield (b : Dealer) (sid : Int) (m : Yield) : Dealer × Except Exc MessageWithRecipient :=
  match b.pendingCalls.get m.requestId.val with
  | none => (b, .error (.valueError s!"no pending calls for session {sid}"))
  | some invocation =>
    if sid ≠ invocation.calleeId then (b, .error (.valueError s!"received unexpected yield from session={sid}"))
    else
      let receiveProgress := (PyDict.get? m.options OPTION_PROGRESS).getD (.bool false)
      if receiveProgress.truthy && invocation.receiveProgress.truthy then
        (b, .ok ⟨.result { requestId := invocation.requestId, args := m.args, kwargs := m.kwargs,
                           details_ := [(.str OPTION_PROGRESS, receiveProgress)] }, invocation.callerId⟩)
      else
        let b := { b with pendingCalls := b.pendingCalls.del m.requestId.val }
        if b.callToInvocationId.contains (invocation.callerId, invocation.requestId.val) then
          let b := { b with
            callToInvocationId := b.callToInvocationId.del (invocation.callerId, invocation.requestId.val) }
          (b, .ok ⟨.result { requestId := invocation.requestId, args := m.args, kwargs := m.kwargs, details_ := [] },
                   invocation.callerId⟩)
        else (b, .error .keyError)

/-- The REGISTER branch of `receive_message` (`dealer.py:135-154`) -/
def receiveRegister (b : Dealer) (sid : Int) (m : Register) : Dealer × Except Exc MessageWithRecipient :=
  match b.registrationsBySession.get sid with
  | none => (b, .error (.valueError s!"cannot register, session {sid} doesn't exist"))
  | some inner =>
    match b.registrationsByProcedure.get m.procedure with
    | none =>
      let (g, id) := b.idgen.next
      let b := { b with idgen := g }
      let (b, r) := b.alloc ⟨id, m.procedure, Dict.empty.set sid sid⟩
      let b := { b with registrationsByProcedure := b.registrationsByProcedure.set m.procedure r }
      let b := { b with registrationsBySession := b.registrationsBySession.set sid (inner.set id r) }
      (b, .ok ⟨.registered ⟨m.requestId, .int id⟩, sid⟩)
    | some _ =>
      (b, .ok ⟨.error { messageType := .int Register.TYPE, requestId := m.requestId,
                        uri := "wamp.error.procedure_already_exists" }, sid⟩)

/-- The UNREGISTER branch of `receive_message` (`dealer.py:155-178`) -/
def receiveUnregister (b : Dealer) (sid : Int) (m : Unregister) : Dealer × Except Exc MessageWithRecipient :=
  match b.registrationsBySession.get sid with
  | none => (b, .error (.valueError s!"cannot unregister, session {sid} doesn't exist"))
  | some registrations =>
    match registrations.get m.registrationId.val with
    | none =>
      (b, .error (.valueError
        s!"cannot unregister, session {sid} haven't registered for {m.registrationId.toValue.pyStr}"))
    | some r =>
      if (b.heap r).registrants.contains sid then
        let o := { b.heap r with registrants := (b.heap r).registrants.del sid }
        let b := b.write r o
        if o.registrants.size = 0 then
          let b := { b with
            registrationsBySession := b.registrationsBySession.set sid (registrations.del m.registrationId.val) }
          if b.registrationsByProcedure.contains o.procedure then
            let b := { b with registrationsByProcedure := b.registrationsByProcedure.del o.procedure }
            (b, .ok ⟨.unregistered ⟨m.requestId⟩, sid⟩)
          else (b, .error .keyError)
        else (b, .ok ⟨.unregistered ⟨m.requestId⟩, sid⟩)
      else
        (b, .error (.valueError s!"cannot unregister, session {sid} haven't registered for {(b.heap r).id}"))

/-- The ERROR branch of `receive_message` (`dealer.py:179-192`) -/
def receiveError (b : Dealer) (m : ErrorMsg) : Dealer × Except Exc MessageWithRecipient :=
  if m.messageType.val ≠ Invocation.TYPE then
    (b, .error (.valueError "dealer: only expected to receive error in response to invocation"))
  else
    match b.pendingCalls.get m.requestId.val with
    | none => (b, .error (.valueError s!"dealer: no pending invocation for {m.requestId.toValue.pyStr}"))
    | some pending =>
      ({ b with pendingCalls := b.pendingCalls.del m.requestId.val },
        .ok ⟨.error { messageType := .int Call.TYPE, requestId := pending.requestId, uri := m.uri, args := m.args,
                      kwargs := m.kwargs, details := m.details }, pending.callerId⟩)

/-- `receive_message` (`dealer.py:67-194`) -/
def receiveMessage (b : Dealer) (sid : Int) (m : Message) : Dealer × Except Exc MessageWithRecipient :=
  match m with
  | .call m => b.receiveCall sid m
  | .yield_ m => b.receiveYield sid m
  | .register m => b.receiveRegister sid m
  | .unregister m => b.receiveUnregister sid m
  | .error m => b.receiveError m
  | _ => (b, .error (.valueError "message type not supported"))

/-! ## Histories -/

/-- A call of the dealer's public API. -/
inductive Op where
  | addSession (details : SessionDetails)
  | removeSession (sid : Int)
  | receiveMessage (sid : Int) (m : Message)
  | hasRegistration (procedure : String)
  deriving DecidableEq, Repr

/-- What a call returned. -/
inductive Out where
  | unit
  | reply (m : MessageWithRecipient)
  | bool (b : Bool)
  deriving DecidableEq, Repr

/-- One call. -/
def step (b : Dealer) : Op → Dealer × Except Exc Out
  | .addSession d => let (b, r) := b.addSession d; (b, r.map fun _ => .unit)
  | .removeSession s => let (b, r) := b.removeSession s; (b, r.map fun _ => .unit)
  | .receiveMessage s m => let (b, r) := b.receiveMessage s m; (b, r.map .reply)
  | .hasRegistration t => (b, .ok (.bool (b.hasRegistration t)))

/-- A call together with its outcome: what a client of the dealer observes. -/
abbrev Obs := Op × Except Exc Out

/-- Run a history from a given dealer: final dealer and observed trace. -/
def runFrom (b : Dealer) : List Op → Dealer × List Obs
  | [] => (b, [])
  | op :: ops =>
    let (b', r) := b.step op
    let (b'', tr) := runFrom b' ops
    (b'', (op, r) :: tr)

/-- The dealer after a history starting from a fresh dealer. -/
def after (ops : List Op) : Dealer := (init.runFrom ops).1
/-- The trace observed during that history. -/
def trace (ops : List Op) : List Obs := (init.runFrom ops).2
/-- What a call returns or raises when made after that history. -/
def outcome (ops : List Op) (op : Op) : Except Exc Out := ((after ops).step op).2

end Dealer
end Wamp
