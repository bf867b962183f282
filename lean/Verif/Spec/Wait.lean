import Verif.Spec.Story

/-!
# Waiting for answers

What it takes for a client not to ask the router for something the router refuses without an answer.
-/

namespace Wamp.Spec.Net
open Wamp.Spec.Ses

variable {W : Type} (c : Codec W)

/-- The registration has been granted, and the client is not waiting for an UNREGISTER of it. -/
def MayUnregister (k : Conn W) (i : Int) : Prop :=
  Granted c (WAMPSession.trace c k.calls) .register i ∧ ∀ r, ¬ Withdrawing c k.calls .unregister r i

/-- Clients ask to end only subscriptions they have been granted and have not yet asked to end. -/
def PoliteUnsubscribes (sched : List Act) : Prop :=
  ∀ pre s u post, sched = pre ++ .send s (.unsubscribe u) :: post → ∀ k, (run c pre).conns s = some k →
    MayUnsubscribe c k u.subscriptionId.val

/-- Clients ask to end only registrations they have been granted and have not yet asked to end. -/
def PoliteUnregisters (sched : List Act) : Prop :=
  ∀ pre s u post, sched = pre ++ .send s (.unregister u) :: post → ∀ k, (run c pre).conns s = some k →
    MayUnregister c k u.registrationId.val

/-- The request is on its way to the router, or its answer is on its way back. -/
def UnderWay (k : Conn W) (kd : Kind) (r : Int) : Prop :=
  (∃ m ∈ k.up, requestOf m = some (kd, r)) ∨ ∃ a ∈ k.down, replyTo a = some (kd, r)

/-- The three ways a request of a client other than a CALL gets lost, each since the client joined: its serializer refused the
message when the session had already written the request down; or the router handled an UNSUBSCRIBE of a subscription the client did
not hold then; or an UNREGISTER of a registration it did not hold then. -/
def LostRequest (sched : List Act) (s : Int) (kd : Kind) (r : Int) : Prop :=
  ∃ pre a post k, sched = pre ++ a :: post ∧ .leave s ∉ post ∧ (run c pre).conns s = some k ∧
    ((∃ m, a = .send s m ∧ requestOf m = some (kd, r) ∧ ∀ w, c.serialize m ≠ .ok w) ∨
     (∃ u rest, a = .route s ∧ k.up = .unsubscribe u :: rest ∧ kd = .unsubscribe ∧ u.requestId.val = r ∧
       ∀ t, (⟨s, t, u.subscriptionId.val⟩ : Pub.Holding) ∉ (Pub.view (Broker.trace (run c pre).broker)).held) ∨
     (∃ u rest, a = .route s ∧ k.up = .unregister u :: rest ∧ kd = .unregister ∧ u.requestId.val = r ∧
       ∀ p, (⟨s, p, u.registrationId.val⟩ : Rpc.Reg) ∉ (Rpc.view (Dealer.trace (run c pre).dealer)).held))

end Wamp.Spec.Net
