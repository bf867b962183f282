import Verif.Spec.StackRest

/-!
# How requests get lost at the router

Read off the calls made on the dealer and on the broker.
-/

namespace Wamp.Spec.Stack
open Net

/-- The dealer passed a CALL of session `s` with this request id on to a session that was removed later. -/
def PassedToLeaver (s i : Int) (ops : List Dealer.Op) : Prop :=
  ∃ before m inv t between later, ops = before ++ .receiveMessage s (.call m) :: (between ++ .removeSession t :: later) ∧
    m.requestId.val = i ∧ Dealer.outcome before (.receiveMessage s (.call m)) = .ok (.reply ⟨.invocation inv, t⟩)

/-- The broker was given an UNSUBSCRIBE of session `s` with this request id, for a subscription `s` did not hold. -/
def UnsubscribedNothing (s i : Int) (ops : List Broker.Op) : Prop :=
  ∃ before u later, ops = before ++ .receiveMessage s (.unsubscribe u) :: later ∧ u.requestId.val = i ∧
    ∀ t, (⟨s, t, u.subscriptionId.val⟩ : Pub.Holding) ∉ (Pub.view (Broker.trace before)).held

/-- The dealer was given an UNREGISTER of session `s` with this request id, for a registration `s` did not hold. -/
def UnregisteredNothing (s i : Int) (ops : List Dealer.Op) : Prop :=
  ∃ before u later, ops = before ++ .receiveMessage s (.unregister u) :: later ∧ u.requestId.val = i ∧
    ∀ p, (⟨s, p, u.registrationId.val⟩ : Rpc.Reg) ∉ (Rpc.view (Dealer.trace before)).held

end Wamp.Spec.Stack
