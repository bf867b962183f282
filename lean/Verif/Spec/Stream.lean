import Verif.Spec.Story

/-!
# What a subscriber should see

The events a client receives, and the publications the router handles while the client is subscribed to their topic.
-/

namespace Wamp.Spec.Net

variable {W : Type} (c : Codec W)

/-- The EVENT in a message. -/
def eventOf : Message → Option Event
  | .event e => some e
  | _ => none

/-- The EVENT a session call receives. -/
def receivedEvent : WAMPSession.Op W → Option Event
  | .receiveMessage m => eventOf m
  | _ => none

/-- The EVENTs a client has received since it joined, in order. -/
def Conn.received (k : Conn W) : List Event := k.calls.filterMap receivedEvent
/-- The EVENTs a client has received or will receive, in order. -/
def Conn.events (k : Conn W) : List Event := k.received ++ k.down.filterMap eventOf

/-- The id of the subscription client `q` holds for the topic. -/
def subscription (n : Net W) (q : Int) (topic : String) : Option Int :=
  ((Pub.view (Broker.trace n.broker)).held.find? fun x => x.session = q && x.topic = topic).map (·.id)

/-- A publication that concerns a subscriber: who published, and the subscriber's id for the topic. -/
structure Fed where
  publisher : Int
  id : Int
  publish : Publish
  deriving DecidableEq

/-- The PUBLISH the router will handle next for client `s`. -/
def nextPublish (n : Net W) (s : Int) : Option Publish :=
  match n.conns s with
  | some ⟨_, .publish m :: _, _⟩ => some m
  | _ => none

/-- What an action adds to the feed of client `q`. -/
def feedStep (q : Int) (n : Net W) (acc : List Fed) : Act → List Fed
  | .join d => if d.sessionId.val = q ∧ (n.conns q).isNone then [] else acc
  | .route s =>
    match nextPublish n s with
    | none => acc
    | some m =>
      match subscription n q m.topic with
      | some i => acc ++ [⟨s, i, m⟩]
      | none => acc
  | _ => acc

/-- The publications the router has handled since client `q` joined, while `q` was subscribed to their topic, in order. -/
def feed (q : Int) (sched : List Act) : List Fed :=
  (sched.foldl (fun (x : Net W × List Fed) a => (x.1.step c a, feedStep q x.1 x.2 a)) ({}, [])).2

/-- The PUBLISHes client `s` wants to send, in order. -/
def publishes (s : Int) (sched : List Act) : List Publish :=
  sched.filterMap fun
    | .send s' (.publish m) => if s' = s then some m else none
    | _ => none

end Wamp.Spec.Net
