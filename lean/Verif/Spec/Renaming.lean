import Verif.Model.Dealer

/-!
# Other names for sessions, topics and procedures

`f` gives every session another id, `g` gives every topic and procedure another name.  The messages a router sends name
neither, so they are the same in both worlds; only who gets them is renamed.
-/

namespace Wamp.Spec.Naming

/-- No two things get the same name. -/
def OneToOne {α β : Type} (f : α → β) : Prop := ∀ x y, f x = f y → x = y

/-- The message with another topic or procedure. -/
def message (g : String → String) : Message → Message
  | .subscribe m => .subscribe { m with topic := g m.topic }
  | .publish m => .publish { m with topic := g m.topic }
  | .call m => .call { m with procedure := g m.procedure }
  | .register m => .register { m with procedure := g m.procedure }
  | m => m

/-- The details of a session with another id. -/
def details (f : Int → Int) (d : SessionDetails) : SessionDetails := { d with sessionId := .int (f d.sessionId.val) }

/-- The same call of the broker's API, by another name. -/
def pubOp (f : Int → Int) (g : String → String) : Broker.Op → Broker.Op
  | .addSession d => .addSession (details f d)
  | .removeSession s => .removeSession (f s)
  | .receiveMessage s m => .receiveMessage (f s) (message g m)
  | .receivePublish s m => .receivePublish (f s) { m with topic := g m.topic }
  | .hasSubscription t => .hasSubscription (g t)

/-- The same call of the dealer's API, by another name. -/
def rpcOp (f : Int → Int) (g : String → String) : Dealer.Op → Dealer.Op
  | .addSession d => .addSession (details f d)
  | .removeSession s => .removeSession (f s)
  | .receiveMessage s m => .receiveMessage (f s) (message g m)
  | .hasRegistration p => .hasRegistration (g p)

/-- The same message to someone else. -/
def sent (f : Int → Int) (m : MessageWithRecipient) : MessageWithRecipient := ⟨m.message, f m.recipient⟩

/-- The same outcome for others. -/
def pubOut (f : Int → Int) : Broker.Out → Broker.Out
  | .unit => .unit
  | .reply m => .reply (sent f m)
  | .publication p => .publication { p with recipients := p.recipients.map f, ack := p.ack.map (sent f) }
  | .bool b => .bool b

/-- The same outcome for others. -/
def rpcOut (f : Int → Int) : Dealer.Out → Dealer.Out
  | .unit => .unit
  | .reply m => .reply (sent f m)
  | .bool b => .bool b

/-- Both succeed, with corresponding results, or both raise an exception of the same class (the texts of `ValueError`s
mention sessions and are not compared). -/
def Alike {α β : Type} (φ : α → β) : Except Exc α → Except Exc β → Prop
  | .ok a, .ok b => b = φ a
  | .error e, .error e' => e' = e ∨ ∃ s s', e = .valueError s ∧ e' = .valueError s'
  | _, _ => False

/-- What a reply puts into the mailbox of client `c`. -/
def mail (c : Int) (m : MessageWithRecipient) : List Message := if m.recipient = c then [m.message] else []

/-- What the broker's answer puts into the mailbox of client `c`. -/
def pubMail (c : Int) : Except Exc Broker.Out → List Message
  | .ok (.reply m) => mail c m
  | .ok (.publication p) =>
    (if c ∈ p.recipients then p.event.toList.map .event else []) ++ p.ack.toList.flatMap (mail c)
  | _ => []

/-- What the dealer's answer puts into the mailbox of client `c`. -/
def rpcMail (c : Int) : Except Exc Dealer.Out → List Message
  | .ok (.reply m) => mail c m
  | _ => []

/-- All messages the broker had for client `c`, in order. -/
def pubInbox (c : Int) (tr : List Broker.Obs) : List Message := tr.flatMap fun x => pubMail c x.2

/-- All messages the dealer had for client `c`, in order. -/
def rpcInbox (c : Int) (tr : List Dealer.Obs) : List Message := tr.flatMap fun x => rpcMail c x.2

end Wamp.Spec.Naming
