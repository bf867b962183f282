import Verif.Spec.Tenants
import Verif.Spec.ByteNet

/-!
# Two applications in one network

As `Spec/Tenants.lean`, but with the clients: `mine` are the clients of one application, `topics` and `procedures` are what it uses.
Subscription and publication ids come from the broker, registration and invocation ids from the dealer, so there are two renamings.
-/

namespace Wamp.Spec.Neighbours
open Wamp.Spec.Net

/-- The same message with other subscription and publication ids (`ρ`) and other registration and invocation ids (`σ`). -/
def renamed (ρ σ : Int → Int) : Message → Message
  | .subscribed m => Tenants.ids ρ (.subscribed m)
  | .unsubscribe m => Tenants.ids ρ (.unsubscribe m)
  | .published m => Tenants.ids ρ (.published m)
  | .event m => Tenants.ids ρ (.event m)
  | m => Tenants.ids σ m

/-- Whether it happens to a client of the application. -/
def actMine (mine : Int → Bool) : Act → Bool
  | .join d => mine d.sessionId.val
  | .leave s | .send s _ | .route s | .deliver s => mine s

/-- The same action with other ids. -/
def actIds (ρ σ : Int → Int) : Act → Act
  | .send s m => .send s (renamed ρ σ m)
  | a => a

/-- The schedule without the others, with other ids. -/
def alone (mine : Int → Bool) (ρ σ : Int → Int) (sched : List Act) : List Act :=
  (sched.filter (actMine mine)).map (actIds ρ σ)

/-- The clients of the application, and nobody else, ask for its topics and procedures, and for no others. -/
def Apart (mine : Int → Bool) (topics procedures : String → Bool) (sched : List Act) : Prop :=
  ∀ s m, .send s m ∈ sched →
    match m with
    | .publish m => mine s = topics m.topic
    | .subscribe m => mine s = topics m.topic
    | .register m => mine s = procedures m.procedure
    | .call m => mine s = procedures m.procedure
    | _ => True

/-- What the application sees, with other ids. -/
def seenIds (ρ σ : Int → Int) : Seen → Seen
  | .got m => .got (renamed ρ σ m)
  | x => x

variable {W : Type} (c : Codec W)

/-- Two clients, or none: they have seen the same, and the same is on its way to them and from them, but for the ids. -/
def Same (ρ σ : Int → Int) : Option (Conn W) → Option (Conn W) → Prop
  | none, none => True
  | some k, some k' => (WAMPSession.trace c k'.calls).map appSees = (WAMPSession.trace c k.calls).map (fun e => seenIds ρ σ (appSees e)) ∧
      k'.up = k.up.map (renamed ρ σ) ∧ k'.down = k.down.map (renamed ρ σ)
  | _, _ => False

end Wamp.Spec.Neighbours
