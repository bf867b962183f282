import Verif.Spec.Strangers

/-!
# What happens at the router, and what happens at each client

Bytes move, and applications act, in one order at the router and in one at each client; between them only messages go.
-/

namespace Wamp.Spec.Stack
open RawSocket Net

/-- All bytes have arrived. -/
def Link.arrived (l : Link) : Link := { l with up := [], upHas := l.upHas ++ l.up, down := [], downHas := l.downHas ++ l.down }

/-- All bytes have arrived. -/
def Stack.arrived (n : Stack) : Stack := { n with links := fun c => (n.links c).map Link.arrived }

/-- Bytes move, or an end of a connection looks and there is no handshake and no whole frame for it to use: nobody does anything. -/
def Stack.idle (n : Stack) : GAct → Bool
  | .act (.carryUp _ _) | .act (.carryDown _ _) => true
  | .act (.serve c _) =>
    match n.links c with
    | none => true
    | some l =>
      match l.router with
      | .greeting _ => l.upHas.length < 4
      | .closed => true
      | _ => (readOne l.upHas).isNone
  | .act (.hear c) =>
    match n.links c with
    | none => true
    | some l =>
      match l.client with
      | .greeting => l.downHas.length < 4
      | .failed => true
      | _ => (readOne l.downHas).isNone
  | _ => false

/-- What was done in a schedule, from a given state on -/
def didFrom (r : Setup) (n : Stack) : List GAct → List GAct
  | [] => []
  | a :: l => if n.idle a = true then didFrom r (n.gstep r a) l else a :: didFrom r (n.gstep r a) l

/-- What was done in a schedule -/
def did (r : Setup) (sched : List GAct) : List GAct := didFrom r {} sched

/-- It happens at the router (`none`), or at this end of a connection (`some c`); that a connection ends, at both. -/
def takesPart : Option Nat → GAct → Bool
  | none, .act (.serve _ _) | none, .act (.drop _) => true
  | some c, .act (.connect c' _ _) | some c, .act (.hear c') | some c, .act (.send c' _) | some c, .act (.drop c') | some c, .inject c' _ =>
    c == c'
  | _, _ => false

/-- What was done at the router or by a client, in order -/
def doneBy (r : Setup) (sched : List GAct) (p : Option Nat) : List GAct := (did r sched).filter (takesPart p)

end Wamp.Spec.Stack
