import Verif.Spec.Present

/-!
# Visitors of a broker

Two histories of a broker: one with visitors, and one without them in which all others do the same.  The ids the others are given may
be other ones; to unsubscribe from a topic each uses the id it was given for it.
-/

namespace Wamp.Spec.Visitors
open Wamp.Broker (Op)

/-- Whether a call of the broker's API is made for a visitor. -/
def visits (q : Int → Bool) : Op → Bool
  | .addSession d => q d.sessionId.val
  | .removeSession s => q s
  | .receiveMessage s _ => q s
  | .receivePublish s _ => q s
  | .hasSubscription _ => false

/-- `ops'` is `ops` without the visitors, everybody else doing the same. -/
inductive Without (q : Int → Bool) : List Op → List Op → Prop where
  | start : Without q [] []
  /-- something a visitor does -/
  | visitor {ops ops'} (h : Without q ops ops') (op : Op) (hq : visits q op = true) : Without q (ops ++ [op]) ops'
  /-- something another does, that needs no id -/
  | other {ops ops'} (h : Without q ops ops') (op : Op) (hq : visits q op = false)
      (hu : ∀ s m, op ≠ .receiveMessage s (.unsubscribe m)) : Without q (ops ++ [op]) (ops' ++ [op])
  /-- another unsubscribes from a topic it is subscribed to -/
  | unsubscribe {ops ops'} (h : Without q ops ops') (s : Int) (hq : q s = false) (topic : String) (m m' : Unsubscribe)
      (hm : ⟨s, topic, m.subscriptionId.val⟩ ∈ (Pub.view (Broker.trace ops)).held)
      (hm' : ⟨s, topic, m'.subscriptionId.val⟩ ∈ (Pub.view (Broker.trace ops')).held) (hr : m.requestId = m'.requestId) :
      Without q (ops ++ [.receiveMessage s (.unsubscribe m)]) (ops' ++ [.receiveMessage s (.unsubscribe m')])
  /-- another tries to unsubscribe with an id it was not given -/
  | mistaken {ops ops'} (h : Without q ops ops') (s : Int) (hq : q s = false) (m m' : Unsubscribe)
      (hm : ∀ x ∈ (Pub.view (Broker.trace ops)).held, x.session = s → x.id ≠ m.subscriptionId.val)
      (hm' : ∀ x ∈ (Pub.view (Broker.trace ops')).held, x.session = s → x.id ≠ m'.subscriptionId.val) (hr : m.requestId = m'.requestId) :
      Without q (ops ++ [.receiveMessage s (.unsubscribe m)]) (ops' ++ [.receiveMessage s (.unsubscribe m')])

end Wamp.Spec.Visitors
