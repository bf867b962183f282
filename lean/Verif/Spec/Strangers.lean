import Verif.Spec.Stack
import Verif.Spec.Acceptor

/-!
# Strangers

The same system, but anybody can connect and send any bytes: besides what `Spec/Stack.lean` lets happen, bytes that no client of this
package has written can come in on any connection.
-/

namespace Wamp.Spec.Stack
open RawSocket Net Hs

/-- One thing that can happen -/
inductive GAct where
  | act (a : SAct)
  /-- These bytes are put onto the way to the router. -/
  | inject (c : Nat) (b : Bytes)

/-- One action -/
def Stack.gstep (r : Setup) (n : Stack) : GAct → Stack
  | .act a => n.step r a
  | .inject c b =>
    match n.links c with
    | none => n
    | some l => n.set c (some { l with up := l.up ++ b })

/-- The system after a schedule -/
def grun (r : Setup) (sched : List GAct) : Stack := sched.foldl (Stack.gstep r) {}

/-- The message in the first whole frame on a connection the router has not decided about -/
def Stack.hears (n : Stack) (c : Nat) : Option Message :=
  match n.links c with
  | none => none
  | some l =>
    match l.router, readOne l.upHas with
    | .accepting f _, some (x, _) => (f.wire.deserialize x.payload).toOption
    | _, _ => none

/-- What is to be remembered of a connection: the session id drawn for it, and the login messages that have come in on it, each with
what the authenticator, the clock and the random source said then -/
def dialogStep (n : Stack) (c : Nat) (x : Option (PyInt × List Acceptor.In)) : GAct → Option (PyInt × List Acceptor.In)
  | .act (.connect c' _ sid) => if c' = c ∧ (n.links c).isNone = true then some (sid, []) else x
  | .act (.serve c' env) =>
    if c' = c then
      match x, n.hears c with
      | some (sid, ins), some m => some (sid, ins ++ [(env, m)])
      | x, _ => x
    else x
  | .act (.drop c') => if c' = c then none else x
  | _ => x

/-- The login messages that have come in on a connection -/
def dialog (r : Setup) (sched : List GAct) (c : Nat) : Option (PyInt × List Acceptor.In) :=
  (sched.foldl (fun (x : Stack × Option (PyInt × List Acceptor.In)) a => (x.1.gstep r a, dialogStep x.1 c x.2 a)) ({}, none)).2

/-- The authenticator has consented to this session: on one connection a message came in whose answer, after those that had come in there
before, is a WELCOME the authenticator's approval justifies (`Justified`: it approved of a HELLO that came in there, and of the ticket,
or the CHALLENGE has been answered).  The session has the id that was drawn for the connection, the realm of the HELLO, and the
identity the authenticator gave. -/
def Consented (r : Setup) (sched : List GAct) (d : SessionDetails) : Prop :=
  ∃ pre c env post ins m hello response,
    sched = pre ++ .act (.serve c env) :: post ∧ (grun r pre).hears c = some m ∧ dialog r pre c = some (d.sessionId, ins) ∧
    (∃ w, Acceptor.reply r.crypto (Acceptor.init true r.roles d.sessionId) ins (env, m) = .ok (some (.welcome w))) ∧
    Justified r.crypto (Acceptor.init true r.roles d.sessionId) ins (env, m) hello response ∧
    d = ⟨d.sessionId, hello.realm, response.authid, response.authrole⟩

/-- The session on whose behalf the broker is called -/
def brokerFor : Broker.Op → Option Int
  | .receiveMessage s _ => some s
  | .receivePublish s _ => some s
  | .removeSession s => some s
  | _ => none

/-- The session on whose behalf the dealer is called -/
def dealerFor : Dealer.Op → Option Int
  | .receiveMessage s _ => some s
  | .removeSession s => some s
  | _ => none

/-- The broker has added this session, and not removed it since. -/
def InBroker (ops : List Broker.Op) (d : SessionDetails) : Prop :=
  ∃ pre post, ops = pre ++ .addSession d :: post ∧ returned (Broker.outcome pre (.addSession d)) = true ∧
    .removeSession d.sessionId.val ∉ post

/-- The dealer has added this session, and not removed it since. -/
def InDealer (ops : List Dealer.Op) (d : SessionDetails) : Prop :=
  ∃ pre post, ops = pre ++ .addSession d :: post ∧ returned (Dealer.outcome pre (.addSession d)) = true ∧
    .removeSession d.sessionId.val ∉ post

/-- The connection something happens on -/
def connOf : GAct → Nat
  | .act (.connect c _ _) => c
  | .act (.carryUp c _) => c
  | .act (.carryDown c _) => c
  | .act (.serve c _) => c
  | .act (.hear c) => c
  | .act (.send c _) => c
  | .act (.drop c) => c
  | .inject c _ => c

/-- The schedule without what happens on some connections -/
def without (q : Nat → Bool) (sched : List GAct) : List GAct := sched.filter fun a => !q (connOf a)

end Wamp.Spec.Stack
