import Verif.Spec.Present

/-!
# Unrelated requests

When the order of two requests does not matter: they come from different sessions, and neither changes what the other is about.
Everything is said of the observed trace.
-/

namespace Wamp.Spec.Unrelated
open Wamp.Spec.Tenants Wamp.Spec.Naming

/-! ## The broker -/

/-- The session for which a call of the broker's API is made. -/
def pubBy : Broker.Op → Option Int
  | .addSession d => some d.sessionId.val
  | .removeSession s => some s
  | .receiveMessage s _ => some s
  | .receivePublish s _ => some s
  | .hasSubscription _ => none

/-- The topics to which the call may add a subscriber or take one away. -/
def pubWrites (held : List Pub.Holding) : Broker.Op → String → Prop
  | .receiveMessage _ (.subscribe m), p => m.topic = p
  | .receiveMessage s (.unsubscribe m), p => ⟨s, p, m.subscriptionId.val⟩ ∈ held
  | .removeSession s, p => ∃ i, ⟨s, p, i⟩ ∈ held
  | _, _ => False

/-- The topics of which the call needs to know the subscribers. -/
def pubReads : Broker.Op → String → Prop
  | .receivePublish _ m, p => m.topic = p
  | .hasSubscription q, p => q = p
  | _, _ => False

/-- The two calls are for different sessions, and neither may change the subscribers of a topic that matters to the other. -/
structure PubUnrelated (v : Pub.View) (a b : Broker.Op) : Prop where
  sessions : ∀ s, pubBy a = some s → pubBy b ≠ some s
  both : ∀ p, pubWrites v.held a p → ¬ pubWrites v.held b p
  first : ∀ p, pubWrites v.held a p → ¬ pubReads b p
  second : ∀ p, pubWrites v.held b p → ¬ pubReads a p

/-- After `ops`, `a` and `b` may come in either order: each has the same outcome and so has whatever is done later, but for the
next two ids, which may be exchanged. -/
def PubEither (ops : List Broker.Op) (a b : Broker.Op) : Prop :=
  ∃ ρ, OneToOne ρ ∧
    (∀ i : Int, i ≠ (Pub.view (Broker.trace ops)).drawn + 1 → i ≠ (Pub.view (Broker.trace ops)).drawn + 2 → ρ i = i) ∧
    (Broker.outcome (ops ++ [b]) a).toOption = (Broker.outcome ops a).toOption.map (pubOutIds ρ) ∧
    (Broker.outcome ops b).toOption = (Broker.outcome (ops ++ [a]) b).toOption.map (pubOutIds ρ) ∧
    ∀ later, ops.length + 2 + later.length ≤ 2 ^ 53 →
      ((Broker.trace (ops ++ [b, a] ++ later.map (pubIds ρ))).drop (ops.length + 2)).map (·.2.toOption) =
        ((Broker.trace (ops ++ [a, b] ++ later)).drop (ops.length + 2)).map fun e => e.2.toOption.map (pubOutIds ρ)

/-! ## The dealer -/

/-- The session for which a call of the dealer's API is made. -/
def rpcBy : Dealer.Op → Option Int
  | .addSession d => some d.sessionId.val
  | .removeSession s => some s
  | .receiveMessage s _ => some s
  | .hasRegistration _ => none

/-- The procedures that the call may register or unregister. -/
def rpcWrites (held : List Rpc.Reg) : Dealer.Op → String → Prop
  | .receiveMessage _ (.register m), p => m.procedure = p
  | .receiveMessage s (.unregister m), p => ⟨s, p, m.registrationId.val⟩ ∈ held
  | .removeSession s, p => ∃ i, ⟨s, p, i⟩ ∈ held
  | _, _ => False

/-- The procedures of which the call needs to know the callee. -/
def rpcReads : Dealer.Op → String → Prop
  | .receiveMessage _ (.call m), p => m.procedure = p
  | .hasRegistration q, p => q = p
  | _, _ => False

/-- The invocation that a YIELD or ERROR answers. -/
def answers : Dealer.Op → Option Int
  | .receiveMessage _ (.yield_ m) => some m.requestId.val
  | .receiveMessage _ (.error m) => if m.messageType.val = 68 then some m.requestId.val else none
  | _ => none

/-- The request of a caller with which a CALL, or an answer to a call in progress, deals. -/
def concerns (pending : List Rpc.Pending) (op : Dealer.Op) (caller request : Int) : Prop :=
  (∃ m, op = .receiveMessage caller (.call m) ∧ m.requestId.val = request) ∨
    ∃ x ∈ pending, answers op = some x.inv ∧ x.caller = caller ∧ x.request.val = request

/-- The two calls are for different sessions; neither may change the callee of a procedure that matters to the other; they do not
deal with the same request of a caller; and neither answers the invocation to which the other leads. -/
structure RpcUnrelated (ops : List Dealer.Op) (a b : Dealer.Op) : Prop where
  sessions : ∀ s, rpcBy a = some s → rpcBy b ≠ some s
  both : ∀ p, rpcWrites (Rpc.view (Dealer.trace ops)).held a p → ¬ rpcWrites (Rpc.view (Dealer.trace ops)).held b p
  first : ∀ p, rpcWrites (Rpc.view (Dealer.trace ops)).held a p → ¬ rpcReads b p
  second : ∀ p, rpcWrites (Rpc.view (Dealer.trace ops)).held b p → ¬ rpcReads a p
  requests : ∀ c q, concerns (Rpc.view (Dealer.trace ops)).pending a c q → ¬ concerns (Rpc.view (Dealer.trace ops)).pending b c q
  answerB : ∀ i c, Dealer.outcome ops a = .ok (.reply ⟨.invocation i, c⟩) → answers b ≠ some i.requestId.val
  answerA : ∀ i c, Dealer.outcome ops b = .ok (.reply ⟨.invocation i, c⟩) → answers a ≠ some i.requestId.val

/-- After `ops`, `a` and `b` may come in either order: each has the same outcome and so has whatever is done later, but for the
next two ids, which may be exchanged. -/
def RpcEither (ops : List Dealer.Op) (a b : Dealer.Op) : Prop :=
  ∃ ρ, OneToOne ρ ∧
    (∀ i : Int, i ≠ (Rpc.view (Dealer.trace ops)).drawn + 1 → i ≠ (Rpc.view (Dealer.trace ops)).drawn + 2 → ρ i = i) ∧
    AsNew.ended (Dealer.outcome (ops ++ [b]) a) = (AsNew.ended (Dealer.outcome ops a)).map (·.map (rpcOutIds ρ)) ∧
    AsNew.ended (Dealer.outcome ops b) = (AsNew.ended (Dealer.outcome (ops ++ [a]) b)).map (·.map (rpcOutIds ρ)) ∧
    ∀ later, ops.length + 2 + later.length ≤ 2 ^ 53 →
      ((Dealer.trace (ops ++ [b, a] ++ later.map (rpcIds ρ))).drop (ops.length + 2)).map (fun e => AsNew.ended e.2) =
        ((Dealer.trace (ops ++ [a, b] ++ later)).drop (ops.length + 2)).map fun e => (AsNew.ended e.2).map (·.map (rpcOutIds ρ))

end Wamp.Spec.Unrelated
