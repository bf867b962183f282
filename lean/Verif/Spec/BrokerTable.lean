import Verif.Spec.Broker

/-!
# A broker as one table

The whole behaviour of a broker in a page: who is connected, one list of who subscribed to what under which id in order of
subscription, and the next id.  No dicts, no shared objects.  `none` stands for `ValueError`.
-/

namespace Wamp.Spec.Pub
open Wamp.Broker (Op Out)

/-- The table. -/
structure Table where
  known : List Int := []
  held : List Holding := []
  next : Int := 1
  deriving DecidableEq, Repr

/-- What the table answers, and how it changes. -/
def Table.step (t : Table) : Op → Table × Option Out
  | .addSession d =>
    if d.sessionId.val ∈ t.known then (t, none) else ({ t with known := t.known ++ [d.sessionId.val] }, some .unit)
  | .removeSession s =>
    if s ∈ t.known then
      ({ t with known := t.known.filter (· ≠ s), held := t.held.filter (·.session ≠ s) }, some .unit)
    else (t, none)
  | .receiveMessage s (.subscribe m) =>
    if s ∈ t.known then
      match t.held.find? (·.topic = m.topic) with
      | none => ({ t with held := t.held ++ [⟨s, m.topic, t.next⟩], next := t.next + 1 },
          some (.reply ⟨.subscribed ⟨m.requestId, .int t.next⟩, s⟩))
      | some x =>
        ({ t with held := if s ∈ subscribersOf t.held m.topic then t.held else t.held ++ [⟨s, m.topic, x.id⟩] },
          some (.reply ⟨.subscribed ⟨m.requestId, .int x.id⟩, s⟩))
    else (t, none)
  | .receiveMessage s (.unsubscribe m) =>
    if ∃ x ∈ t.held, x.session = s ∧ x.id = m.subscriptionId.val then
      ({ t with held := t.held.filter fun x => ¬ (x.session = s ∧ x.id = m.subscriptionId.val) },
        some (.reply ⟨.unsubscribed ⟨m.requestId⟩, s⟩))
    else (t, none)
  | .receiveMessage _ _ => (t, none)
  | .receivePublish s m =>
    if s ∈ t.known then
      ({ t with next := t.next + 1 },
        some (.publication {
          recipients := subscribersOf t.held m.topic
          event := (t.held.find? (·.topic = m.topic)).map fun x =>
            { subscriptionId := .int x.id, publicationId := .int t.next, args := m.args, kwargs := m.kwargs }
          ack := if PyDict.flag m.options "acknowledge" then some ⟨.published ⟨m.requestId, .int t.next⟩, s⟩ else none }))
    else (t, none)
  | .hasSubscription topic => (t, some (.bool (t.held.any (·.topic = topic))))

/-- What the table answers to a sequence of calls. -/
def Table.answers (t : Table) : List Op → List (Option Out)
  | [] => []
  | op :: ops => (t.step op).2 :: (t.step op).1.answers ops

end Wamp.Spec.Pub
