import Verif.Spec.ByteNet

/-!
# What a client has asked for

Which request of a client makes the router send it a message.
-/

namespace Wamp.Spec.Net

/-- The message `m` from the router is owed to the request `q`: it answers `q`, or `q` made the client a subscriber or a callee.
An answer carries the request's id, an ERROR also its type; a PUBLISHED is owed to a PUBLISH that wants it, and a progressive
RESULT to a CALL that wants those. -/
def OwedTo (q m : Message) : Prop :=
  match m, q with
  | .subscribed r, .subscribe q => r.requestId = q.requestId
  | .unsubscribed r, .unsubscribe q => r.requestId = q.requestId
  | .published r, .publish q => r.requestId = q.requestId ∧ PyDict.flag q.options "acknowledge" = true
  | .registered r, .register q => r.requestId = q.requestId
  | .unregistered r, .unregister q => r.requestId = q.requestId
  | .result r, .call q => r.requestId = q.requestId ∧
      (PyDict.flag r.details "progress" = true → PyDict.flag q.options "receive_progress" = true)
  | .error r, .call q => r.requestId = q.requestId ∧ r.messageType = .int 48
  | .error r, .register q => r.requestId = q.requestId ∧ r.messageType = .int 64
  | .event _, .subscribe _ => True
  | .invocation _, .register _ => True
  | _, _ => False

variable {W : Type}

/-- The data `w` has been sent to the client since it connected: it is on its way, or it has arrived. -/
def BConn.Gets (k : BConn W) (w : W) : Prop := w ∈ k.down ∨ .receive w ∈ k.calls

/-- What the client sends in the schedule is read by the router as it was meant. -/
def ReadBack (c : Codec W) (s : Int) (sched : List Act) : Prop :=
  ∀ q, .send s q ∈ sched → ∀ w, c.serialize q = .ok w → c.deserialize w = .ok (received q)

end Wamp.Spec.Net
