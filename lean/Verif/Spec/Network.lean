import Verif.Spec.Session
import Verif.Spec.Broker
import Verif.Spec.Dealer

/-!
# Clients and a router connected by FIFO channels

The library is sans-IO; the program around it moves messages.  Here is that program: any number of clients, each with
its own `WAMPSession`, a router that owns one `Broker` and one `Dealer`, and for each client two unbounded FIFO
channels of messages.  What happens next is chosen freely (`Act`), so a theorem about all lists of actions is about all
schedules.  The state of a component is represented by the list of API calls made on it so far; what it answers to the
next call is `Broker.outcome`, `Dealer.outcome`, `WAMPSession.outcome` of the model.
Channels carry messages; that bytes carry them is C10 and C81.
-/

namespace Wamp.Spec.Net
open Wamp.Spec.Ses

/-- A connected client: the calls made on its session, the messages on their way to the router and back. -/
structure Conn (W : Type) where
  calls : List (WAMPSession.Op W) := []
  up : List Message := []
  down : List Message := []

/-- The whole system. -/
structure Net (W : Type) where
  broker : List Broker.Op := []
  dealer : List Dealer.Op := []
  conns : Int → Option (Conn W) := fun _ => none

/-- One thing that can happen. -/
inductive Act where
  /-- A client joins: the router adds its session. -/
  | join (d : SessionDetails)
  /-- A client disconnects: the router removes its session, its channels are gone. -/
  | leave (s : Int)
  /-- The application of client `s` asks its session to send a message. -/
  | send (s : Int) (m : Message)
  /-- The router handles the oldest message from client `s`. -/
  | route (s : Int)
  /-- Client `s` receives the oldest message from the router. -/
  | deliver (s : Int)

/-- Did the call return? -/
def returned {α : Type} : Except Exc α → Bool
  | .ok _ => true
  | .error _ => false

variable {W : Type} (c : Codec W)

/-- Replace one client. -/
def Net.setConn (n : Net W) (s : Int) (k : Option (Conn W)) : Net W :=
  { n with conns := fun s' => if s' = s then k else n.conns s' }

/-- The messages for `s` among messages with recipients. -/
def inbox (out : List (Int × Message)) (s : Int) : List Message := (out.filter (·.1 = s)).map (·.2)

/-- Put messages onto the channels to their recipients, in order; whoever is not connected gets nothing. -/
def Net.push (n : Net W) (out : List (Int × Message)) : Net W :=
  { n with conns := fun s => (n.conns s).map fun k => { k with down := k.down ++ inbox out s } }

/-- The event of a publication, for each recipient. -/
def eventsOf (p : Publication) : List (Int × Message) :=
  match p.event with
  | some ev => p.recipients.map (·, .event ev)
  | none => []

/-- The acknowledgement of a publication. -/
def ackOf (p : Publication) : List (Int × Message) :=
  match p.ack with
  | some r => [(r.recipient, r.message)]
  | none => []

/-- What the broker's answer puts onto the channels: the event for each recipient, then the acknowledgement. -/
def brokerOut : Except Exc Broker.Out → List (Int × Message)
  | .ok (.reply r) => [(r.recipient, r.message)]
  | .ok (.publication p) => eventsOf p ++ ackOf p
  | _ => []

/-- What the dealer's answer puts onto the channels. -/
def dealerOut : Except Exc Dealer.Out → List (Int × Message)
  | .ok (.reply r) => [(r.recipient, r.message)]
  | _ => []

/-- The broker call the router makes for a message from `s`, if the message is for the broker. -/
def brokerCall (s : Int) : Message → Option Broker.Op
  | .publish m => some (.receivePublish s m)
  | .subscribe m => some (.receiveMessage s (.subscribe m))
  | .unsubscribe m => some (.receiveMessage s (.unsubscribe m))
  | _ => none

/-- The dealer call the router makes for a message from `s`, if the message is for the dealer. -/
def dealerCall (s : Int) : Message → Option Dealer.Op
  | .call m => some (.receiveMessage s (.call m))
  | .yield_ m => some (.receiveMessage s (.yield_ m))
  | .register m => some (.receiveMessage s (.register m))
  | .unregister m => some (.receiveMessage s (.unregister m))
  | .error m => some (.receiveMessage s (.error m))
  | _ => none

/-- The router handles a message from `s`. -/
def Net.handle (n : Net W) (s : Int) (m : Message) : Net W :=
  match brokerCall s m, dealerCall s m with
  | some op, _ => ({ n with broker := n.broker ++ [op] }).push (brokerOut (Broker.outcome n.broker op))
  | none, some op => ({ n with dealer := n.dealer ++ [op] }).push (dealerOut (Dealer.outcome n.dealer op))
  | none, none => n

/-- One action.  Actions that are not possible (nobody there, nothing in the channel) do nothing. -/
def Net.step (n : Net W) : Act → Net W
  | .join d =>
    let n' : Net W := { n with broker := n.broker ++ [.addSession d], dealer := n.dealer ++ [.addSession d] }
    if returned (Broker.outcome n.broker (.addSession d)) ∧ returned (Dealer.outcome n.dealer (.addSession d)) then
      n'.setConn d.sessionId.val (some {})
    else n'
  | .leave s =>
    let n' : Net W := { n with broker := n.broker ++ [.removeSession s], dealer := n.dealer ++ [.removeSession s] }
    n'.setConn s none
  | .send s m =>
    match n.conns s with
    | none => n
    | some k => n.setConn s (some { k with
        calls := k.calls ++ [.sendMessage m]
        up := if returned (WAMPSession.outcome c k.calls (.sendMessage m)) then k.up ++ [m] else k.up })
  | .route s =>
    match n.conns s with
    | none => n
    | some k =>
      match k.up with
      | [] => n
      | m :: rest => (n.setConn s (some { k with up := rest })).handle s m
  | .deliver s =>
    match n.conns s with
    | none => n
    | some k =>
      match k.down with
      | [] => n
      | m :: rest => n.setConn s (some { k with calls := k.calls ++ [.receiveMessage m], down := rest })

/-- The system after a schedule. -/
def run (sched : List Act) : Net W := sched.foldl (Net.step c) {}

/-! ## What travels to a client -/

/-- Messages about subscriptions and publications. -/
def isPub : Message → Bool
  | .subscribed _ | .unsubscribed _ | .event _ | .published _ => true
  | _ => false

/-- Messages about registrations and calls: the replies, invocations, and ERRORs for CALL (48) or REGISTER (64). -/
def isRpc : Message → Bool
  | .registered _ | .unregistered _ | .invocation _ | .result _ => true
  | .error m => (m.messageType.val = 48 || m.messageType.val = 64)
  | _ => false

/-! ## What clients have to keep to -/

/-- The kinds of request that go to the broker. -/
def pubSub : Kind → Bool
  | .publish | .subscribe | .unsubscribe => true
  | _ => false
/-- The kinds of request that go to the dealer. -/
def rpc : Kind → Bool
  | .call | .register | .unregister => true
  | _ => false

/-- No client starts a request with the id of a request of the same kind it is still waiting for. -/
def FreshRequests (K : Kind → Bool) (sched : List Act) : Prop :=
  ∀ pre s m post, sched = pre ++ .send s m :: post → ∀ kc, (run c pre).conns s = some kc →
    ∀ k i, requestOf m = some (k, i) → K k = true → ¬ Outstanding c kc.calls k i

/-- No client makes a progressive CALL. -/
def PlainCalls (sched : List Act) : Prop :=
  ∀ s m, .send s (.call m) ∈ sched → PyDict.flag m.options "progress" = false

/-- A client sends an invocation ERROR only for an invocation it has received and not yet answered.  (The session does
not check this, unlike for YIELD.) -/
def ErrorsAnswer (sched : List Act) : Prop :=
  ∀ pre s m post, sched = pre ++ .send s (.error m) :: post → ∀ kc, (run c pre).conns s = some kc →
    m.messageType.val = 68 → Unanswered c (WAMPSession.trace c kc.calls) m.requestId.val

/-- A session id is never given to a second client. -/
def DistinctSessions (sched : List Act) : Prop :=
  ∀ pre d mid d' post, sched = pre ++ .join d :: mid ++ .join d' :: post → d.sessionId.val ≠ d'.sessionId.val

/-- What a client has to keep to, for calls. -/
structure GoodClients (sched : List Act) : Prop where
  fresh : FreshRequests c rpc sched
  plain : PlainCalls sched
  errors : ErrorsAnswer c sched
  distinct : DistinctSessions sched

/-- The subscription has been granted, and the client is not waiting for an UNSUBSCRIBE of it. -/
def MayUnsubscribe (k : Conn W) (i : Int) : Prop :=
  Granted c (WAMPSession.trace c k.calls) .subscribe i ∧ ∀ r, ¬ Withdrawing c k.calls .unsubscribe r i

/-- How often a schedule lets the router handle a message of client `s`. -/
def routes (s : Int) (l : List Act) : Nat := l.countP fun | .route s' => decide (s' = s) | _ => false

end Wamp.Spec.Net
