import Verif.Model.Broker

/-!
# Specification vocabulary for the broker

Everything here is a function of the observed trace (calls with their outcomes); the broker's own data structures are
not mentioned.
-/

namespace Wamp.Spec.Pub
open Wamp.Broker (Op Out Obs)

/-- A session holds a subscription: session, topic and the id it was given. -/
structure Holding where
  session : Int
  topic : String
  id : Int
  deriving DecidableEq, Repr

/-- What can be known from the trace: the sessions that have joined and not left; the subscriptions held, in order of
subscription; how many ids have been drawn. -/
structure View where
  known : List Int := []
  held : List Holding := []
  drawn : Nat := 0
  deriving DecidableEq, Repr

/-- `s` subscribes to `t` and is given `i`. -/
def subscribed (h : List Holding) (s : Int) (t : String) (i : Int) : List Holding :=
  if h.any (fun x => x.session = s && x.topic = t) then h else h ++ [⟨s, t, i⟩]

/-- The view after one more observed call. -/
def View.next (v : View) : Obs → View
  | (.addSession d, .ok _) => { v with known := v.known ++ [d.sessionId.val] }
  | (.removeSession s, .ok _) =>
    { v with known := v.known.filter (· ≠ s), held := v.held.filter (·.session ≠ s) }
  | (.receiveMessage s (.subscribe m), .ok (.reply ⟨.subscribed r, _⟩)) =>
    { v with
      held := subscribed v.held s m.topic r.subscriptionId.val
      drawn := if v.held.any (·.topic = m.topic) then v.drawn else v.drawn + 1 }
  | (.receiveMessage s (.unsubscribe m), .ok _) =>
    { v with held := v.held.filter (fun x => ¬ (x.session = s ∧ x.id = m.subscriptionId.val)) }
  | (.receivePublish _ _, .ok _) => { v with drawn := v.drawn + 1 }
  | _ => v

/-- The view after a trace. -/
def view (tr : List Obs) : View := tr.foldl View.next {}

/-- The sessions among the holders that are subscribed to a topic, in order of subscription. -/
def subscribersOf (h : List Holding) (t : String) : List Int := (h.filter (·.topic = t)).map (·.session)

/-- The sessions subscribed to a topic, in order of subscription. -/
def View.subscribers (v : View) (t : String) : List Int := subscribersOf v.held t

/-- The observed call hands a session an id it already holds for another topic. -/
def Clash (v : View) : Obs → Prop
  | (.receiveMessage s (.subscribe m), .ok (.reply ⟨.subscribed r, _⟩)) =>
    ∃ x ∈ v.held, x.session = s ∧ x.topic ≠ m.topic ∧ x.id = r.subscriptionId.val
  | _ => False

/-- Nobody is ever handed an id they already hold for another topic. -/
def NoClash (tr : List Obs) : Prop := ∀ pre e post, tr = pre ++ e :: post → ¬ Clash (view pre) e

end Wamp.Spec.Pub

namespace Wamp.Spec.Pub
open Wamp.Broker (Op Out Obs)

/-- The call is a SUBSCRIBE of `s` to `t` answered with id `i`. -/
def Subscribes (e : Obs) (s : Int) (t : String) (i : Int) : Prop :=
  ∃ m r rec, e = (.receiveMessage s (.subscribe m), .ok (.reply ⟨.subscribed r, rec⟩)) ∧ m.topic = t ∧
    r.subscriptionId.val = i

/-- The call ends the subscription `i` of `s`: a successful UNSUBSCRIBE, or `s` leaves. -/
def Ends (e : Obs) (s : Int) (i : Int) : Prop :=
  (∃ m out, e = (.receiveMessage s (.unsubscribe m), .ok out) ∧ m.subscriptionId.val = i) ∨
  (∃ out, e = (.removeSession s, .ok out))

/-- The session is added. -/
def Joins (e : Obs) (s : Int) : Prop := ∃ d out, e = (.addSession d, .ok out) ∧ d.sessionId.val = s
/-- The session is removed. -/
def Leaves (e : Obs) (s : Int) : Prop := ∃ out, e = (.removeSession s, .ok out)

/-- The publication id a publish call shows its caller, in the event or in the acknowledgement. -/
def pubId? : Obs → Option Int
  | (.receivePublish _ _, .ok (.publication p)) =>
    match p.event, p.ack with
    | some ev, _ => some ev.publicationId.val
    | none, some ⟨.published r, _⟩ => some r.publicationId.val
    | none, _ => none
  | _ => none

/-- The subscription id a SUBSCRIBE call shows its caller. -/
def subId? : Obs → Option Int
  | (.receiveMessage _ (.subscribe _), .ok (.reply ⟨.subscribed r, _⟩)) => some r.subscriptionId.val
  | _ => none

end Wamp.Spec.Pub
