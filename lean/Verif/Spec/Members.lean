import Verif.Spec.Strangers
import Verif.Spec.Broker

/-!
# Members among strangers

Some connections are those of strangers: anything may come in on them.  The others are used by clients of this package only.
-/

namespace Wamp.Spec.Stack
open Net

/-- What a client of this package does, or what happens to it -/
def legal : GAct → Option SAct
  | .act a => some a
  | .inject _ _ => none

/-- What happens on the connections that are not those of strangers -/
def members (q : Nat → Bool) (sched : List GAct) : List SAct := (without q sched).filterMap legal

/-- The system without some of its connections -/
def Stack.only (q : Nat → Bool) (n : Stack) : Stack := { n with links := fun c => if q c = true then none else n.links c }

/-- The application has been handed this message by its session. -/
def Sees (f : Format) (calls : List (WAMPSession.Op Bytes)) (m : Message) : Prop :=
  ∃ op, (op, .ok (.msg m)) ∈ WAMPSession.trace f.wire calls

/-- Bytes no client of this package has written come in only on the connections of strangers, none of whom is welcomed. -/
structure Strangers (r : Setup) (q : Nat → Bool) (sched : List GAct) : Prop where
  own : ∀ c b, .inject c b ∈ sched → q c = true
  out : ∀ pre c env post m sid ins w, q c = true → sched = pre ++ .act (.serve c env) :: post → (grun r pre).hears c = some m →
    dialog r pre c = some (sid, ins) →
    Acceptor.reply r.crypto (Acceptor.init r.hasAuthenticator r.roles sid) ins (env, m) ≠ .ok (some (.welcome w))

/-- The EVENTs the application has been handed, in order -/
def eventsSeen (f : Format) (calls : List (WAMPSession.Op Bytes)) : List Event :=
  (WAMPSession.trace f.wire calls).filterMap fun
    | (_, .ok (.msg (.event e))) => some e
    | _ => none

/-- The id of the subscription the broker lets a session have for the topic -/
def subscriptionOf (ops : List Broker.Op) (s : Int) (topic : String) : Option Int :=
  ((Pub.view (Broker.trace ops)).held.find? fun x => x.session = s && x.topic = topic).map (·.id)

/-- What one more call of the broker adds to what concerns a session -/
def concernsStep (s : Int) (ops : List Broker.Op) (acc : List (Int × Publish)) : Broker.Op → List (Int × Publish)
  | .addSession d => if d.sessionId.val = s ∧ returned (Broker.outcome ops (.addSession d)) = true then [] else acc
  | .receivePublish _ m =>
    match subscriptionOf ops s m.topic with
    | some i => acc ++ [(i, m)]
    | none => acc
  | _ => acc

/-- The PUBLISHes the broker has handled since it added the session, while the session was subscribed to their topic, each with the id
of the subscription, in order -/
def concerns (s : Int) (ops : List Broker.Op) : List (Int × Publish) :=
  (ops.foldl (fun (x : List Broker.Op × List (Int × Publish)) op => (x.1 ++ [op], concernsStep s x.1 x.2 op)) ([], [])).2

end Wamp.Spec.Stack
