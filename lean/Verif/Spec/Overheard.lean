import Verif.Spec.Tally

/-!
# Where contents come from

In terms of the network on messages (`Spec/Network.lean`): which messages, by whom, stand behind the contents of a message from the
router.
-/

namespace Wamp.Spec.Net

/-- The contents of the message from the router to `s` were meant for `s`:
an EVENT has those of a PUBLISH to a topic `s` has subscribed to;
an INVOCATION those of a CALL of a procedure `s` has registered;
a RESULT those of a YIELD of somebody who has registered the procedure `s` has called with that request id;
an ERROR those of an ERROR somebody has sent, `s` having made the call, or none.
The other messages have none. -/
def MeantFor (sched : List Act) (s : Int) : Message → Prop
  | .event e => ∃ t p q, .send t (.publish p) ∈ sched ∧ .send s (.subscribe q) ∈ sched ∧ q.topic = p.topic ∧ e.args = p.args ∧ e.kwargs = p.kwargs
  | .invocation v => ∃ t c q, .send t (.call c) ∈ sched ∧ .send s (.register q) ∈ sched ∧ q.procedure = c.procedure ∧
      v.args = c.args ∧ v.kwargs = c.kwargs ∧ v.payload = c.payload
  | .result r => ∃ c t y q, .send s (.call c) ∈ sched ∧ .send t (.yield_ y) ∈ sched ∧ .send t (.register q) ∈ sched ∧
      q.procedure = c.procedure ∧ r.requestId = c.requestId ∧ r.args = y.args ∧ r.kwargs = y.kwargs ∧ ∀ b, r.payload = some b → y.payload = some b
  | .error e => (e.args = none ∧ e.kwargs = none ∧ e.details = []) ∨
      ∃ c t f, .send s (.call c) ∈ sched ∧ .send t (.error f) ∈ sched ∧ e.requestId = c.requestId ∧ e.uri = f.uri ∧ e.args = f.args ∧
        e.kwargs = f.kwargs ∧ e.details = f.details
  | .subscribed _ | .unsubscribed _ | .published _ | .registered _ | .unregistered _ => True
  | _ => False

end Wamp.Spec.Net
