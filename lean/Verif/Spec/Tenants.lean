import Verif.Spec.Renaming

/-!
# Two applications at one router

`mine` are the sessions of one application, `ours` the topics and procedures it uses; the sessions of all others use other topics
and procedures.  Ids are drawn from one generator, so those an application is given depend on what the others do; `ids ρ` is the
same message with other ids.
-/

namespace Wamp.Spec.Tenants
open Wamp.Spec.Naming (OneToOne)

/-- The same message with other subscription, publication, registration and invocation ids.  Request ids of callers stay. -/
def ids (ρ : Int → Int) : Message → Message
  | .subscribed m => .subscribed { m with subscriptionId := .int (ρ m.subscriptionId.val) }
  | .unsubscribe m => .unsubscribe { m with subscriptionId := .int (ρ m.subscriptionId.val) }
  | .published m => .published { m with publicationId := .int (ρ m.publicationId.val) }
  | .event m => .event { m with subscriptionId := .int (ρ m.subscriptionId.val), publicationId := .int (ρ m.publicationId.val) }
  | .registered m => .registered { m with registrationId := .int (ρ m.registrationId.val) }
  | .unregister m => .unregister { m with registrationId := .int (ρ m.registrationId.val) }
  | .invocation m => .invocation { m with requestId := .int (ρ m.requestId.val), registrationId := .int (ρ m.registrationId.val) }
  | .yield_ m => .yield_ { m with requestId := .int (ρ m.requestId.val) }
  | .error m => .error (if m.messageType.val = 68 then { m with requestId := .int (ρ m.requestId.val) } else m)
  | m => m

/-- The same for a message that is to be sent. -/
def sent (ρ : Int → Int) (m : MessageWithRecipient) : MessageWithRecipient := ⟨ids ρ m.message, m.recipient⟩

/-! ## The broker -/

/-- Whether a call of the broker's API is made for the application: for one of its sessions, or about one of its topics. -/
def pubMine (mine : Int → Bool) (ours : String → Bool) : Broker.Op → Bool
  | .addSession d => mine d.sessionId.val
  | .removeSession s => mine s
  | .receiveMessage s _ => mine s
  | .receivePublish s _ => mine s
  | .hasSubscription t => ours t

/-- The sessions of the application, and nobody else, subscribe and publish to its topics, and to no others. -/
def pubApart (mine : Int → Bool) (ours : String → Bool) : Broker.Op → Prop
  | .receiveMessage s (.subscribe m) => mine s = ours m.topic
  | .receivePublish s m => mine s = ours m.topic
  | _ => True

/-- The same call with other ids. -/
def pubIds (ρ : Int → Int) : Broker.Op → Broker.Op
  | .receiveMessage s m => .receiveMessage s (ids ρ m)
  | op => op

/-- The same outcome with other ids. -/
def pubOutIds (ρ : Int → Int) : Broker.Out → Broker.Out
  | .reply m => .reply (sent ρ m)
  | .publication p => .publication {
      recipients := p.recipients
      event := p.event.map fun e => { e with subscriptionId := .int (ρ e.subscriptionId.val), publicationId := .int (ρ e.publicationId.val) }
      ack := p.ack.map (sent ρ) }
  | o => o

/-! ## The dealer -/

/-- Whether a call of the dealer's API is made for the application. -/
def rpcMine (mine : Int → Bool) (ours : String → Bool) : Dealer.Op → Bool
  | .addSession d => mine d.sessionId.val
  | .removeSession s => mine s
  | .receiveMessage s _ => mine s
  | .hasRegistration p => ours p

/-- The sessions of the application, and nobody else, register and call its procedures, and no others. -/
def rpcApart (mine : Int → Bool) (ours : String → Bool) : Dealer.Op → Prop
  | .receiveMessage s (.register m) => mine s = ours m.procedure
  | .receiveMessage s (.call m) => mine s = ours m.procedure
  | _ => True

/-- The same call with other ids. -/
def rpcIds (ρ : Int → Int) : Dealer.Op → Dealer.Op
  | .receiveMessage s m => .receiveMessage s (ids ρ m)
  | op => op

/-- The same outcome with other ids. -/
def rpcOutIds (ρ : Int → Int) : Dealer.Out → Dealer.Out
  | .reply m => .reply (sent ρ m)
  | o => o

/-- Nobody sends an ERROR for an INVOCATION that was sent to a session of the other side. -/
def ErrorsApart (mine : Int → Bool) (ops : List Dealer.Op) : Prop :=
  ∀ before s m later, ops = before ++ .receiveMessage s (.error m) :: later → m.messageType.val = 68 →
    ∀ op i c, (op, Except.ok (Dealer.Out.reply ⟨.invocation i, c⟩)) ∈ Dealer.trace before →
      i.requestId.val = m.requestId.val → mine s = mine c

end Wamp.Spec.Tenants
