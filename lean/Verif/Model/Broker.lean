import Verif.Model.Types
import Verif.Model.Dict
import Verif.Model.Idgen

/-!
# Broker — `wampproto/broker.py`

`Subscription` objects are shared between `subscriptions_by_topic` and the per-session dicts and mutated through
either, so they live in an explicit heap and the dicts hold references.  The per-session inner dicts are only reachable
through `subscriptions_by_session` (or owned by one running call), so they are values.
A method returns the new broker and either the result or the exception; on an exception the broker is the one left
behind at the moment of the raise.
-/

namespace Wamp

/-- A reference to a heap object. -/
abbrev Ref := Nat

/-- `Subscription` (`broker.py:6-10`) -/
structure Subscription where
  id : Int
  topic : String
  subscribers : Dict Int Int

/-- `Broker` (`broker.py:13-19`) -/
structure Broker where
  heap : Ref → Subscription
  nextRef : Ref
  subscriptionsByTopic : Dict String Ref
  subscriptionsBySession : Dict Int (Dict Int Ref)
  sessions : Dict Int SessionDetails
  idgen : IdGen

namespace Broker

/-- `Broker.__init__` (`broker.py:14-19`) -/
def init : Broker := ⟨fun _ => ⟨0, "", .empty⟩, 0, .empty, .empty, .empty, {}⟩

/-- Write to the object behind a reference. -/
def write (b : Broker) (r : Ref) (o : Subscription) : Broker :=
  { b with heap := fun r' => if r' = r then o else b.heap r' }

/-- Create an object. -/
def alloc (b : Broker) (o : Subscription) : Broker × Ref :=
  ({ b with heap := fun r' => if r' = b.nextRef then o else b.heap r', nextRef := b.nextRef + 1 }, b.nextRef)

/-- `add_session` (`broker.py:21-26`) -/
def addSession (b : Broker) (details : SessionDetails) : Broker × Except Exc Unit :=
  if b.subscriptionsBySession.contains details.sessionId.val then (b, .error (.valueError "cannot add session twice"))
  else
    ({ b with
        subscriptionsBySession := b.subscriptionsBySession.set details.sessionId.val .empty
        sessions := b.sessions.set details.sessionId.val details }, .ok ())

/-- The loop of `remove_session` (`broker.py:33-39`) over the items popped from the session's dict. -/
def removeLoop (b : Broker) (sid : Int) : List (Int × Ref) → Broker × Except Exc Unit
  | [] => (b, .ok ())
  | (_, sub) :: rest =>
    match b.subscriptionsByTopic.get (b.heap sub).topic with
    | none => (b, .error .keyError)
    | some r =>
      let o := b.heap r
      let o := if o.subscribers.contains sid then { o with subscribers := o.subscribers.del sid } else o
      let b := b.write r o
      if o.subscribers.size = 0 ∧ ¬ b.subscriptionsByTopic.contains o.topic then (b, .error .keyError)
      else
        let b := if o.subscribers.size = 0 then
            { b with subscriptionsByTopic := b.subscriptionsByTopic.del o.topic } else b
        removeLoop b sid rest

/-- `remove_session` (`broker.py:28-41`) -/
def removeSession (b : Broker) (sid : Int) : Broker × Except Exc Unit :=
  match b.subscriptionsBySession.get sid with
  | none => (b, .error (.valueError "cannot remove non-existing session"))
  | some subscriptions =>
    let b := { b with subscriptionsBySession := b.subscriptionsBySession.del sid }
    match b.removeLoop sid subscriptions.items with
    | (b, .error e) => (b, .error e)
    | (b, .ok ()) =>
      if b.sessions.contains sid then ({ b with sessions := b.sessions.del sid }, .ok ())
      else (b, .error .keyError)

/-- `has_subscription` (`broker.py:43-44`) -/
def hasSubscription (b : Broker) (topic : String) : Bool := b.subscriptionsByTopic.contains topic

/-- The SUBSCRIBE branch of `receive_message` (`broker.py:47-61`) -/
def receiveSubscribe (b : Broker) (sid : Int) (m : Subscribe) : Broker × Except Exc MessageWithRecipient :=
  match b.subscriptionsBySession.get sid with
  | none => (b, .error (.valueError s!"cannot subscribe, session {sid} doesn't exist"))
  | some _ =>
    let (b, r) : Broker × Ref :=
      match b.subscriptionsByTopic.get m.topic with
      | none =>
        let (g, id) := b.idgen.next
        let b := { b with idgen := g }
        let (b, r) := b.alloc ⟨id, m.topic, Dict.empty.set sid sid⟩
        ({ b with subscriptionsByTopic := b.subscriptionsByTopic.set m.topic r }, r)
      | some r =>
        let o := b.heap r
        (b.write r { o with subscribers := o.subscribers.set sid sid }, r)
    let id := (b.heap r).id
    match b.subscriptionsBySession.get sid with
    | none => (b, .error .keyError)
    | some inner =>
      let b := { b with subscriptionsBySession := b.subscriptionsBySession.set sid (inner.set id r) }
      (b, .ok ⟨.subscribed ⟨m.requestId, .int id⟩, sid⟩)

/-- The UNSUBSCRIBE branch of `receive_message` (`broker.py:62-78`) -/
def receiveUnsubscribe (b : Broker) (sid : Int) (m : Unsubscribe) : Broker × Except Exc MessageWithRecipient :=
  match b.subscriptionsBySession.get sid with
  | none => (b, .error (.valueError s!"cannot unsubscribe, session {sid} doesn't exist"))
  | some subscriptions =>
    match subscriptions.get m.subscriptionId.val with
    | none => (b, .error (.valueError s!"cannot unsubscribe, subscription {m.subscriptionId.toValue.pyStr} doesn't exist"))
    | some r =>
      if (b.heap r).subscribers.contains sid then
        let o := { b.heap r with subscribers := (b.heap r).subscribers.del sid }
        let b := b.write r o
        if o.subscribers.size = 0 ∧ ¬ b.subscriptionsByTopic.contains o.topic then (b, .error .keyError)
        else
          let b := if o.subscribers.size = 0 then
              { b with subscriptionsByTopic := b.subscriptionsByTopic.del o.topic } else b
          let b := { b with
            subscriptionsBySession := b.subscriptionsBySession.set sid (subscriptions.del m.subscriptionId.val) }
          (b, .ok ⟨.unsubscribed ⟨m.requestId⟩, sid⟩)
      else (b, .error .keyError)

/-- `receive_message` (`broker.py:46-80`) -/
def receiveMessage (b : Broker) (sid : Int) (m : Message) : Broker × Except Exc MessageWithRecipient :=
  match m with
  | .subscribe m => b.receiveSubscribe sid m
  | .unsubscribe m => b.receiveUnsubscribe sid m
  | _ => (b, .error (.valueError "message type not supported"))

/-- `receive_publish` (`broker.py:82-101`) -/
def receivePublish (b : Broker) (sid : Int) (m : Publish) : Broker × Except Exc Publication :=
  if b.subscriptionsBySession.contains sid then
    let result : Publication := {}
    let (g, publicationId) := b.idgen.next
    let b := { b with idgen := g }
    let result := match b.subscriptionsByTopic.get m.topic with
      | none => result
      | some r =>
        { result with
          event := some { subscriptionId := .int (b.heap r).id, publicationId := .int publicationId,
                          args := m.args, kwargs := m.kwargs }
          recipients := result.recipients ++ (b.heap r).subscribers.keys }
    let result := if PyDict.flag m.options "acknowledge" then
        { result with ack := some ⟨.published ⟨m.requestId, .int publicationId⟩, sid⟩ } else result
    (b, .ok result)
  else (b, .error (.valueError s!"cannot publish, session {sid} doesn't exist"))

/-! ## Histories -/

/-- A call of the broker's public API. -/
inductive Op where
  | addSession (details : SessionDetails)
  | removeSession (sid : Int)
  | receiveMessage (sid : Int) (m : Message)
  | receivePublish (sid : Int) (m : Publish)
  | hasSubscription (topic : String)
  deriving DecidableEq, Repr

/-- What a call returned. -/
inductive Out where
  | unit
  | reply (m : MessageWithRecipient)
  | publication (p : Publication)
  | bool (b : Bool)
  deriving DecidableEq, Repr

/-- One call. -/
def step (b : Broker) : Op → Broker × Except Exc Out
  | .addSession d => let (b, r) := b.addSession d; (b, r.map fun _ => .unit)
  | .removeSession s => let (b, r) := b.removeSession s; (b, r.map fun _ => .unit)
  | .receiveMessage s m => let (b, r) := b.receiveMessage s m; (b, r.map .reply)
  | .receivePublish s m => let (b, r) := b.receivePublish s m; (b, r.map .publication)
  | .hasSubscription t => (b, .ok (.bool (b.hasSubscription t)))

/-- A call together with its outcome: what a client of the broker observes. -/
abbrev Obs := Op × Except Exc Out

/-- Run a history from a given broker: final broker and observed trace. -/
def runFrom (b : Broker) : List Op → Broker × List Obs
  | [] => (b, [])
  | op :: ops =>
    let (b', r) := b.step op
    let (b'', tr) := runFrom b' ops
    (b'', (op, r) :: tr)

/-- The broker after a history starting from a fresh broker. -/
def after (ops : List Op) : Broker := (init.runFrom ops).1
/-- The trace observed during that history. -/
def trace (ops : List Op) : List Obs := (init.runFrom ops).2
/-- What a call returns or raises when made after that history. -/
def outcome (ops : List Op) (op : Op) : Except Exc Out := ((after ops).step op).2

end Broker
end Wamp
