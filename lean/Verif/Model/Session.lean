import Verif.Model.Serializer
import Verif.Model.Dict

/-!
# Client session — `wampproto/session.py`

Sets and dict keys of ids are represented by their numeric value (`True` and `1` are the same member).
-/

namespace Wamp

/-- A Python `set[int]`. -/
abbrev IdSet := List Int

/-- `s.add(i)` -/
def IdSet.add (s : IdSet) (i : Int) : IdSet := if i ∈ s then s else s ++ [i]
/-- `s.remove(i)` when present, `s.discard(i)` always. -/
def IdSet.discard (s : IdSet) (i : Int) : IdSet := s.filter (· ≠ i)

/-- `WAMPSession` (`session.py:4-18`); the serializer is a parameter of the methods. -/
structure WAMPSession where
  callRequests : IdSet := []
  registerRequests : IdSet := []
  registrations : IdSet := []
  invocationRequests : IdSet := []
  unregisterRequests : Dict Int Int := .empty
  publishRequests : IdSet := []
  subscribeRequests : IdSet := []
  subscriptions : IdSet := []
  unsubscribeRequests : Dict Int Int := .empty
  deriving DecidableEq, Repr

namespace WAMPSession

/-- `send_message` (`session.py:20-49`) -/
def sendMessage {W : Type} (c : Codec W) (s : WAMPSession) (msg : Message) : WAMPSession × Except Exc W :=
  match msg with
  | .call m => ({ s with callRequests := s.callRequests.add m.requestId.val }, c.serialize msg)
  | .register m => ({ s with registerRequests := s.registerRequests.add m.requestId.val }, c.serialize msg)
  | .unregister m =>
    ({ s with unregisterRequests := s.unregisterRequests.set m.requestId.val m.registrationId.val }, c.serialize msg)
  | .yield_ m =>
    if m.requestId.val ∈ s.invocationRequests then
      ({ s with invocationRequests := s.invocationRequests.discard m.requestId.val }, c.serialize msg)
    else (s, .error (.valueError "cannot yield for unknown invocation request"))
  | .publish m =>
    if PyDict.flag m.options "acknowledge" then
      ({ s with publishRequests := s.publishRequests.add m.requestId.val }, c.serialize msg)
    else (s, c.serialize msg)
  | .subscribe m => ({ s with subscribeRequests := s.subscribeRequests.add m.requestId.val }, c.serialize msg)
  | .unsubscribe m =>
    ({ s with unsubscribeRequests := s.unsubscribeRequests.set m.requestId.val m.subscriptionId.val }, c.serialize msg)
  | .error m =>
    if m.messageType.val ≠ Invocation.TYPE then (s, .error (.valueError "send only supported for invocation error"))
    else ({ s with invocationRequests := s.invocationRequests.discard m.requestId.val }, c.serialize msg)
  | .goodbye _ => (s, c.serialize msg)
  | _ => (s, .error (.valueError ("unknown message type " ++ msg.pyType)))

/-- The ERROR branch of `receive_message` (`session.py:108-141`), `match` on the type code by `==`. -/
def receiveError (s : WAMPSession) (m : ErrorMsg) : WAMPSession × Except Exc Message :=
  if m.messageType.val = Call.TYPE then
    if m.requestId.val ∈ s.callRequests then
      ({ s with callRequests := s.callRequests.discard m.requestId.val }, .ok (.error m))
    else (s, .error (.valueError "received ERROR for invalid call request"))
  else if m.messageType.val = Register.TYPE then
    if m.requestId.val ∈ s.registerRequests then
      ({ s with registerRequests := s.registerRequests.discard m.requestId.val }, .ok (.error m))
    else (s, .error (.valueError "received ERROR for invalid register request"))
  else if m.messageType.val = Unregister.TYPE then
    if s.unregisterRequests.contains m.requestId.val then
      ({ s with unregisterRequests := s.unregisterRequests.del m.requestId.val }, .ok (.error m))
    else (s, .error (.valueError "received ERROR for invalid unregister request"))
  else if m.messageType.val = Subscribe.TYPE then
    if m.requestId.val ∈ s.subscribeRequests then
      ({ s with subscribeRequests := s.subscribeRequests.discard m.requestId.val }, .ok (.error m))
    else (s, .error (.valueError "received ERROR for invalid subscribe request"))
  else if m.messageType.val = Unsubscribe.TYPE then
    if s.unsubscribeRequests.contains m.requestId.val then
      ({ s with unsubscribeRequests := s.unsubscribeRequests.del m.requestId.val }, .ok (.error m))
    else (s, .error (.valueError "received ERROR for invalid unsubscribe request"))
  else if m.messageType.val = Publish.TYPE then
    if m.requestId.val ∈ s.publishRequests then
      ({ s with publishRequests := s.publishRequests.discard m.requestId.val }, .ok (.error m))
    else (s, .error (.valueError "received ERROR for invalid publish request"))
  else (s, .error (.valueError ("unknown error message type " ++ (Message.error m).pyType)))

/-- `receive_message` (`session.py:55-149`) -/
def receiveMessage (s : WAMPSession) (msg : Message) : WAMPSession × Except Exc Message :=
  match msg with
  | .result m =>
    if m.requestId.val ∈ s.callRequests then
      ({ s with callRequests := s.callRequests.discard m.requestId.val }, .ok msg)
    else (s, .error (.valueError "received RESULT for invalid request_id"))
  | .registered m =>
    if m.requestId.val ∈ s.registerRequests then
      ({ s with registerRequests := s.registerRequests.discard m.requestId.val
                registrations := s.registrations.add m.registrationId.val }, .ok msg)
    else (s, .error (.valueError "received REGISTERED for invalid request_id"))
  | .unregistered m =>
    match s.unregisterRequests.get m.requestId.val with
    | none => (s, .error (.valueError "received UNREGISTERED for invalid request_id"))
    | some registrationId =>
      let s := { s with unregisterRequests := s.unregisterRequests.del m.requestId.val }
      if registrationId ∈ s.registrations then
        ({ s with registrations := s.registrations.discard registrationId }, .ok msg)
      else (s, .error (.valueError "received UNREGISTERED for invalid registration_id"))
  | .invocation m =>
    if m.registrationId.val ∈ s.registrations then
      ({ s with invocationRequests := s.invocationRequests.add m.requestId.val }, .ok msg)
    else (s, .error (.valueError "received INVOCATION for invalid registration_id"))
  | .published m =>
    if m.requestId.val ∈ s.publishRequests then
      ({ s with publishRequests := s.publishRequests.discard m.requestId.val }, .ok msg)
    else (s, .error (.valueError "received PUBLISHED for invalid registration_id"))
  | .subscribed m =>
    if m.requestId.val ∈ s.subscribeRequests then
      ({ s with subscribeRequests := s.subscribeRequests.discard m.requestId.val
                subscriptions := s.subscriptions.add m.subscriptionId.val }, .ok msg)
    else (s, .error (.valueError "received SUBSCRIBED for invalid request_id"))
  | .unsubscribed m =>
    match s.unsubscribeRequests.get m.requestId.val with
    | none => (s, .error (.valueError "received UNSUBSCRIBED for invalid request_id"))
    | some subscriptionId =>
      let s := { s with unsubscribeRequests := s.unsubscribeRequests.del m.requestId.val }
      if subscriptionId ∈ s.subscriptions then
        ({ s with subscriptions := s.subscriptions.discard subscriptionId }, .ok msg)
      else (s, .error (.valueError "received UNSUBSCRIBED for invalid subscription_id"))
  | .event m =>
    if m.subscriptionId.val ∈ s.subscriptions then (s, .ok msg)
    else (s, .error (.valueError "received EVENT for invalid subscription_id"))
  | .error m => s.receiveError m
  | .goodbye _ => (s, .ok msg)
  | .abort _ => (s, .ok msg)
  | _ => (s, .error (.valueError ("unknown message " ++ msg.pyType)))

/-- `receive` (`session.py:51-53`) -/
def receive {W : Type} (c : Codec W) (s : WAMPSession) (data : W) : WAMPSession × Except Exc Message :=
  match c.deserialize data with
  | .error e => (s, .error e)
  | .ok msg => s.receiveMessage msg

/-! ## Histories -/

/-- A call of the session's public API. -/
inductive Op (W : Type) where
  | sendMessage (m : Message)
  | receive (data : W)
  | receiveMessage (m : Message)

/-- What a call returned. -/
inductive Out (W : Type) where
  | data (w : W)
  | msg (m : Message)

/-- One call. -/
def step {W : Type} (c : Codec W) (s : WAMPSession) : Op W → WAMPSession × Except Exc (Out W)
  | .sendMessage m => let (s, r) := s.sendMessage c m; (s, r.map .data)
  | .receive d => let (s, r) := s.receive c d; (s, r.map .msg)
  | .receiveMessage m => let (s, r) := s.receiveMessage m; (s, r.map .msg)

/-- A call together with its outcome. -/
abbrev Obs (W : Type) := Op W × Except Exc (Out W)

/-- Run a history: final session and observed trace. -/
def runFrom {W : Type} (c : Codec W) (s : WAMPSession) : List (Op W) → WAMPSession × List (Obs W)
  | [] => (s, [])
  | op :: ops =>
    let (s', r) := s.step c op
    let (s'', tr) := runFrom c s' ops
    (s'', (op, r) :: tr)

/-- The session after a history, starting from `WAMPSession(serializer)`. -/
def after {W : Type} (c : Codec W) (ops : List (Op W)) : WAMPSession := (runFrom c {} ops).1
/-- The trace observed during that history. -/
def trace {W : Type} (c : Codec W) (ops : List (Op W)) : List (Obs W) := (runFrom c {} ops).2
/-- What a call returns or raises after that history. -/
def outcome {W : Type} (c : Codec W) (ops : List (Op W)) (op : Op W) : Except Exc (Out W) := ((after c ops).step c op).2

end WAMPSession
end Wamp
