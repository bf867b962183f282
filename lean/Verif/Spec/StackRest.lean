import Verif.Spec.Members
import Verif.Spec.Rest
import Verif.Spec.Wait

/-!
# What is left to do

Actions that move the whole system on without anybody asking for anything new: bytes arrive, whole frames are used, invocations are
answered.
-/

namespace Wamp.Spec.Stack
open RawSocket Net Ses

/-- An invocation this connection's application has been handed and has not answered -/
def Owes (l : Link) (i : Int) : Prop :=
  ∃ calls, l.client = .session calls ∧ Unanswered l.config.format.wire (WAMPSession.trace l.config.format.wire calls) i

/-- The action moves the system on without a new request. -/
def Stack.Moves (n : Stack) : SAct → Prop
  | .carryUp c k => 0 < k ∧ ∃ l, n.links c = some l ∧ l.up ≠ []
  | .carryDown c k => 0 < k ∧ ∃ l, n.links c = some l ∧ l.down ≠ []
  | .serve c _ => ∃ l x, n.links c = some l ∧ readOne l.upHas = some x
  | .hear c => ∃ l x, n.links c = some l ∧ readOne l.downHas = some x
  | .send c (.yield_ y) => ∃ l, n.links c = some l ∧ Owes l y.requestId.val
  | .send c (.error e) => e.messageType.val = 68 ∧ ∃ l, n.links c = some l ∧ Owes l e.requestId.val
  | _ => False

/-- Nothing but such actions, each possible when its turn comes -/
def WindsDownS (r : Setup) (sched more : List SAct) : Prop :=
  ∀ pre a post, more = pre ++ a :: post → (srun r (sched ++ pre)).Moves a

/-- Nothing is on its way, nothing lies about, nobody owes an answer. -/
def Stack.AtRest (n : Stack) : Prop :=
  ∀ c l, n.links c = some l → l.up = [] ∧ l.upHas = [] ∧ l.down = [] ∧ l.downHas = [] ∧ ∀ i, ¬ Owes l i

/-- Everybody who is connected has logged in. -/
def Stack.AllIn (n : Stack) : Prop := ∀ c l, n.links c = some l → ∃ calls, l.client = .session calls

/-- `PoliteUnsubscribes`, on bytes. -/
def PoliteUnsubscribesB (cs : Int → Codec Bytes) (sched : List Act) : Prop :=
  ∀ pre s u post, sched = pre ++ .send s (.unsubscribe u) :: post → ∀ k, (brun cs pre).conns s = some k →
    Granted (cs s) (WAMPSession.trace (cs s) k.calls) .subscribe u.subscriptionId.val ∧
      ∀ r, ¬ Withdrawing (cs s) k.calls .unsubscribe r u.subscriptionId.val

/-- `PoliteUnregisters`, on bytes. -/
def PoliteUnregistersB (cs : Int → Codec Bytes) (sched : List Act) : Prop :=
  ∀ pre s u post, sched = pre ++ .send s (.unregister u) :: post → ∀ k, (brun cs pre).conns s = some k →
    Granted (cs s) (WAMPSession.trace (cs s) k.calls) .register u.registrationId.val ∧
      ∀ r, ¬ Withdrawing (cs s) k.calls .unregister r u.registrationId.val

/-- What applications have to keep to: request ids that are free, no progressive calls, answers to what they have been asked, and they end
only what they have. -/
structure GoodApps (fmt : Int → Format) (sched : List Act) : Prop where
  fresh : FreshRequestsB (codecs fmt) pubSub sched
  good : GoodClientsB (codecs fmt) sched
  unsubscribe : PoliteUnsubscribesB (codecs fmt) sched
  unregister : PoliteUnregistersB (codecs fmt) sched

end Wamp.Spec.Stack
