import Verif.Spec.Network

/-!
# What has happened to a call

Statements about a schedule: which actions were taken, in which order, and which messages they moved.
-/

namespace Wamp.Spec.Net

/-- An action taken after a schedule. -/
abbrev Ev := List Act → Act → Prop

variable {W : Type} (c : Codec W)

/-- The next message client `s` will receive. -/
def NextDown (sched : List Act) (s : Int) (m : Message) : Prop :=
  ∃ k rest, (run c sched).conns s = some k ∧ k.down = m :: rest
/-- The next message the router will handle for client `s`. -/
def NextUp (sched : List Act) (s : Int) (m : Message) : Prop :=
  ∃ k rest, (run c sched).conns s = some k ∧ k.up = m :: rest

/-- Client `s` sends a message. -/
def Sends (s : Int) (m : Message) : Ev := fun _ a => a = .send s m
/-- Client `s` receives a message. -/
def Receives (s : Int) (m : Message) : Ev := fun before a => a = .deliver s ∧ NextDown c before s m
/-- The router handles a message from client `s`. -/
def Routes (s : Int) (m : Message) : Ev := fun before a => a = .route s ∧ NextUp c before s m
/-- Client `s` holds a registration of the procedure at the router. -/
def Holds (sched : List Act) (s : Int) (procedure : String) : Prop :=
  ∃ i, (⟨s, procedure, i⟩ : Rpc.Reg) ∈ (Rpc.view (Dealer.trace (run c sched).dealer)).held
/-- The router handles the CALL while `callee` holds its procedure. -/
def RoutesTo (s : Int) (m : Call) (callee : Int) : Ev := fun before a =>
  Routes c s (.call m) before a ∧ Holds c before callee m.procedure
/-- The router handles the CALL while nobody holds its procedure. -/
def RoutesNowhere (s : Int) (m : Call) : Ev := fun before a =>
  Routes c s (.call m) before a ∧ ∀ t, ¬ Holds c before t m.procedure

/-- After `start`, these things happened; the latest comes first in the list. -/
def Chain (start : List Act) : List Ev → List Act → Prop
  | [], _ => True
  | e :: es, post => ∃ q a r, post = q ++ a :: r ∧ e (start ++ q) a ∧ Chain start es q

/-- No CALL with this request id. -/
def NoCall (s r : Int) (acts : List Act) : Prop := ∀ m, .send s (.call m) ∈ acts → m.requestId.val ≠ r

/-- `m` is the latest CALL with its request id that client `s` sent, and since then these things have happened, the latest
first in the list. -/
def Story (sched : List Act) (s : Int) (m : Call) (es : List Ev) : Prop :=
  ∃ pre post, sched = pre ++ .send s (.call m) :: post ∧ NoCall s m.requestId.val post ∧ Chain (pre ++ [.send s (.call m)]) es post

/-- The INVOCATION carries what the CALL carries. -/
structure SameContent (m : Call) (inv : Invocation) : Prop where
  args : inv.args = m.args
  kwargs : inv.kwargs = m.kwargs
  payload : inv.payload = m.payload
  serializer : inv.serializer = m.serializer

/-- Where a RESULT or call ERROR for client `s` comes from.
The latest CALL with that id was handled by the router while another client held the procedure; that client received an
INVOCATION carrying what the CALL carries, sent a YIELD (or ERROR) for it, and the RESULT (or ERROR) carries what that
carried.  Or nobody held the procedure. -/
def Explained (sched : List Act) (s : Int) : Message → Prop
  | .result r => ∃ m callee inv y, r.requestId = m.requestId ∧ SameContent m inv ∧ y.requestId.val = inv.requestId.val ∧
      r.args = y.args ∧ r.kwargs = y.kwargs ∧
      Story sched s m [Sends callee (.yield_ y), Receives c callee (.invocation inv), RoutesTo c s m callee]
  | .error e => ∃ m, e.requestId = m.requestId ∧
      ((∃ callee inv x, SameContent m inv ∧ x.requestId.val = inv.requestId.val ∧ x.messageType.val = 68 ∧
          e.uri = x.uri ∧ e.args = x.args ∧ e.kwargs = x.kwargs ∧ e.details = x.details ∧
          Story sched s m [Sends callee (.error x), Receives c callee (.invocation inv), RoutesTo c s m callee]) ∨
        (e.uri = "wamp.error.no_such_procedure" ∧ Story sched s m [RoutesNowhere c s m]))
  | _ => False

/-- The message is an answer (YIELD or ERROR) to this invocation. -/
def AnswerTo (i : Int) : Message → Prop
  | .yield_ y => y.requestId.val = i
  | .error e => e.requestId.val = i
  | _ => False

/-- Some connected client is dealing with the call `r` of client `s`: the INVOCATION is on its way to it, or it has received
it and not answered, or its answer is on its way to the router. -/
def InHands (sched : List Act) (s r : Int) : Prop :=
  ∃ t kt m inv, m.requestId.val = r ∧ SameContent m inv ∧ (run c sched).conns t = some kt ∧
    ((.invocation inv ∈ kt.down ∧ Story sched s m [RoutesTo c s m t]) ∨
      (Ses.Unanswered c (WAMPSession.trace c kt.calls) inv.requestId.val ∧
        Story sched s m [Receives c t (.invocation inv), RoutesTo c s m t]) ∨
      ∃ a ∈ kt.up, AnswerTo inv.requestId.val a ∧
        Story sched s m [Sends t a, Receives c t (.invocation inv), RoutesTo c s m t])

/-- Client `s` leaves. -/
def Leaves (s : Int) : Ev := fun _ a => a = .leave s

/-- The serializer refuses the message. -/
def Refused (m : Message) : Prop := ∃ e, c.serialize m = .error e

/-- How the latest CALL `r` of client `s` got lost: its own serializer refused it; or the router passed it on to a client that
has left since; or that client answered, and its serializer refused the answer. -/
def Lost (sched : List Act) (s r : Int) : Prop :=
  ∃ m, m.requestId.val = r ∧
    ((Refused c (.call m) ∧ Story sched s m []) ∨
      (∃ t, Story sched s m [Leaves t, RoutesTo c s m t]) ∨
      ∃ t inv a, SameContent m inv ∧ AnswerTo inv.requestId.val a ∧ Refused c a ∧
        Story sched s m [Sends t a, Receives c t (.invocation inv), RoutesTo c s m t])

/-- Nobody leaves. -/
def NoLeaves (sched : List Act) : Prop := ∀ s, .leave s ∉ sched

/-- Everything clients want to send can be serialized. -/
def Serializes (sched : List Act) : Prop := ∀ s m, .send s m ∈ sched → ∃ w, c.serialize m = .ok w

end Wamp.Spec.Net
