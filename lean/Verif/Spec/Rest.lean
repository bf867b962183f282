import Verif.Spec.Story

/-!
# Coming to rest

What can happen after a schedule without anybody asking for anything new: messages are routed and delivered, and
applications answer invocations their session has given them.
-/

namespace Wamp.Spec.Net
open Wamp.Spec.Ses

variable {W : Type} (c : Codec W)

/-- The action moves the system on without a new request: there is a message to route or to deliver, or the client has an
invocation to answer and answers it. -/
def Moves (sched : List Act) : Act → Prop
  | .route s => ∃ k m rest, (run c sched).conns s = some k ∧ k.up = m :: rest
  | .deliver s => ∃ k m rest, (run c sched).conns s = some k ∧ k.down = m :: rest
  | .send s (.yield_ y) => ∃ k, (run c sched).conns s = some k ∧ Unanswered c (WAMPSession.trace c k.calls) y.requestId.val
  | .send s (.error e) => e.messageType.val = 68 ∧
      ∃ k, (run c sched).conns s = some k ∧ Unanswered c (WAMPSession.trace c k.calls) e.requestId.val
  | _ => False

/-- Nothing but such actions, each possible when its turn comes. -/
def WindsDown (sched more : List Act) : Prop := ∀ pre a post, more = pre ++ a :: post → Moves c (sched ++ pre) a

end Wamp.Spec.Net
