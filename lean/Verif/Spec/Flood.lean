import Verif.Spec.ByteNet

/-!
# How much a client can get

In terms of the network on bytes (`Spec/ByteNet.lean`): what a client has been sent, counted against what clients have sent.
-/

namespace Wamp.Spec.Net

variable {W : Type}

/-- The call takes data from the router. -/
def isReceive : WAMPSession.Op W → Bool
  | .receive _ => true
  | _ => false

/-- How many messages the router has sent to a client since it connected: those it has received, and those on their way -/
def BConn.got (k : BConn W) : Nat := k.down.length + k.calls.countP isReceive

/-- How many messages the clients described have been asked to send -/
def sendsBy (p : Int → Bool) (sched : List Act) : Nat :=
  sched.countP fun | .send s _ => p s | _ => false

/-- Who sent the message the broker is called with -/
def brokerFrom : Broker.Op → Option Int
  | .receiveMessage s _ => some s
  | .receivePublish s _ => some s
  | _ => none

end Wamp.Spec.Net
