import Verif.Spec.Network

/-!
# Counting requests and answers

In terms of the network on messages (`Spec/Network.lean`).
-/

namespace Wamp.Spec.Net
open Wamp.Spec.Ses

/-- The request a message settles: the one it replies to, unless it is a progressive RESULT -/
def settles : Message → Option (Kind × Int)
  | .result r => if PyDict.flag r.details "progress" then none else replyTo (.result r)
  | m => replyTo m

/-- How many of the messages settle requests of this kind with this id -/
def settled (l : List Message) (k : Kind) (i : Int) : Nat := l.countP fun m => decide (settles m = some (k, i))

/-- How many of the messages are requests of this kind with this id -/
def requested (l : List Message) (k : Kind) (i : Int) : Nat := l.countP fun m => decide (requestOf m = some (k, i))

variable {W : Type}

/-- What the router has sent to a client since it connected: what the client has received, and what is on its way -/
def Conn.sentTo (k : Conn W) : List Message := (k.calls.filterMap fun | .receiveMessage m => some m | _ => none) ++ k.down

/-- What the application of a session id has asked to send -/
def asks (s : Int) (sched : List Act) : List Message :=
  sched.filterMap fun | .send t m => if t = s then some m else none | _ => none

end Wamp.Spec.Net
