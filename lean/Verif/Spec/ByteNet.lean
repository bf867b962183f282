import Verif.Spec.Network
import Verif.Spec.Wire

/-!
# The same network, on bytes

As `Spec/Network.lean`, but the channels carry what serializers produce (`W`: bytes or text), and each client has its own
serializer: `WAMPSession.send_message` returns the data to send, `WAMPSession.receive` takes the data that arrived; the
router deserializes what a client sent with that client's serializer, and serializes for each recipient with the
recipient's.  Data the router cannot deserialize is dropped; a message it cannot serialize for a recipient is not sent.
-/

namespace Wamp.Spec.Net
open Wamp.Spec.Ses

/-- A connected client: the calls made on its session, the data on its way to the router and back. -/
structure BConn (W : Type) where
  calls : List (WAMPSession.Op W) := []
  up : List W := []
  down : List W := []

/-- The whole system. -/
structure BNet (W : Type) where
  broker : List Broker.Op := []
  dealer : List Dealer.Op := []
  conns : Int → Option (BConn W) := fun _ => none

variable {W : Type} (cs : Int → Codec W)

/-- Replace one client. -/
def BNet.setConn (n : BNet W) (s : Int) (k : Option (BConn W)) : BNet W :=
  { n with conns := fun s' => if s' = s then k else n.conns s' }

/-- Serialize messages for their recipients and put the data onto the channels. -/
def BNet.push (n : BNet W) (out : List (Int × Message)) : BNet W :=
  { n with conns := fun s => (n.conns s).map fun k =>
      { k with down := k.down ++ (inbox out s).filterMap fun m => ((cs s).serialize m).toOption } }

/-- The router handles a message from `s`. -/
def BNet.handle (n : BNet W) (s : Int) (m : Message) : BNet W :=
  match brokerCall s m, dealerCall s m with
  | some op, _ => ({ n with broker := n.broker ++ [op] }).push cs (brokerOut (Broker.outcome n.broker op))
  | none, some op => ({ n with dealer := n.dealer ++ [op] }).push cs (dealerOut (Dealer.outcome n.dealer op))
  | none, none => n

/-- One action. -/
def BNet.step (n : BNet W) : Act → BNet W
  | .join d =>
    let n' : BNet W := { n with broker := n.broker ++ [.addSession d], dealer := n.dealer ++ [.addSession d] }
    if returned (Broker.outcome n.broker (.addSession d)) ∧ returned (Dealer.outcome n.dealer (.addSession d)) then
      n'.setConn d.sessionId.val (some {})
    else n'
  | .leave s =>
    let n' : BNet W := { n with broker := n.broker ++ [.removeSession s], dealer := n.dealer ++ [.removeSession s] }
    n'.setConn s none
  | .send s m =>
    match n.conns s with
    | none => n
    | some k => n.setConn s (some { k with
        calls := k.calls ++ [.sendMessage m]
        up := match WAMPSession.outcome (cs s) k.calls (.sendMessage m) with
          | .ok (.data w) => k.up ++ [w]
          | _ => k.up })
  | .route s =>
    match n.conns s with
    | none => n
    | some k =>
      match k.up with
      | [] => n
      | w :: rest =>
        match (cs s).deserialize w with
        | .error _ => n.setConn s (some { k with up := rest })
        | .ok m => (n.setConn s (some { k with up := rest })).handle cs s m
  | .deliver s =>
    match n.conns s with
    | none => n
    | some k =>
      match k.down with
      | [] => n
      | w :: rest => n.setConn s (some { k with calls := k.calls ++ [.receive w], down := rest })

/-- The system after a schedule. -/
def brun (sched : List Act) : BNet W := sched.foldl (BNet.step cs) {}

/-! ## What serializers and clients have to keep to -/

/-- A set of values that messages can be made of: it has the strings of up to 64 characters, the ids and type codes and
`True`; a list of up to 8 elements of the set, and a dict of up to 8 entries with distinct keys, strings of up to 64
characters, and values of the set; and the elements of its lists and the values of its dicts. -/
structure DataSet (D : Value → Prop) : Prop where
  str : ∀ s : String, s.length ≤ 64 → D (.str s)
  int : ∀ n : Int, 0 ≤ n → n ≤ 2 ^ 53 → D (.int n)
  true_ : D (.bool true)
  list : ∀ l : List Value, l.length ≤ 8 → (∀ v ∈ l, D v) → D (.list l)
  dict : ∀ d : PyDict, d.length ≤ 8 → (d.map (·.1)).Nodup →
    (∀ kv ∈ d, (∃ s : String, kv.1 = .str s ∧ s.length ≤ 64) ∧ D kv.2) → D (.dict d)
  elem : ∀ l : List Value, D (.list l) → ∀ v ∈ l, D v
  val : ∀ d : PyDict, D (.dict d) → ∀ kv ∈ d, D kv.2

/-- The serializer restores every value of the set. -/
def Restores (c : Codec W) (D : Value → Prop) : Prop := ∀ v, D v → ∃ w, c.dumps v = .ok w ∧ c.loads w = .ok v

/-- Every message clients ask to send is valid and made of values of the set. -/
def SendsData (D : Value → Prop) (sched : List Act) : Prop :=
  ∀ s m, .send s m ∈ sched → Valid m ∧ D (.list m.marshal)

/-- `FreshRequests`, on bytes. -/
def FreshRequestsB (K : Ses.Kind → Bool) (sched : List Act) : Prop :=
  ∀ pre s m post, sched = pre ++ .send s m :: post → ∀ kc, (brun cs pre).conns s = some kc →
    ∀ k i, requestOf m = some (k, i) → K k = true → ¬ Outstanding (cs s) kc.calls k i

/-- `ErrorsAnswer`, on bytes. -/
def ErrorsAnswerB (sched : List Act) : Prop :=
  ∀ pre s m post, sched = pre ++ .send s (.error m) :: post → ∀ kc, (brun cs pre).conns s = some kc →
    m.messageType.val = 68 → Unanswered (cs s) (WAMPSession.trace (cs s) kc.calls) m.requestId.val

/-- `GoodClients`, on bytes. -/
structure GoodClientsB (sched : List Act) : Prop where
  fresh : FreshRequestsB cs rpc sched
  plain : PlainCalls sched
  errors : ErrorsAnswerB cs sched
  distinct : DistinctSessions sched

/-! ## How the two networks correspond -/

/-- The serializer that leaves the objects as they are. -/
def objects : Codec Value := ⟨.ok, .ok⟩

/-- The action, with the message as the receiver will see it (`args` is `[]` if only `kwargs` is given, and so on). -/
def arriving : Act → Act
  | .send s m => .send s (received m)
  | a => a

/-- What the application sees of a call of its session. -/
inductive Seen where
  | sent
  | got (m : Message)
  | failed
  deriving DecidableEq

/-- What the application sees of a call of its session. -/
def appSees : WAMPSession.Obs W → Seen
  | (_, .ok (.data _)) => .sent
  | (_, .ok (.msg m)) => .got m
  | (_, .error _) => .failed

/-- The client on bytes corresponds to the client on messages: the data in the channels are the messages, and the
application saw the same. -/
structure Corresponds (c : Codec W) (b : BConn W) (k : Conn Value) : Prop where
  up : b.up.map c.deserialize = k.up.map .ok
  down : b.down.map c.deserialize = k.down.map .ok
  seen : (WAMPSession.trace c b.calls).map appSees = (WAMPSession.trace objects k.calls).map appSees

/-- The network on bytes corresponds to the network on messages: the broker and the dealer had the same calls, the same
clients are connected, and they correspond. -/
structure Refines (b : BNet W) (n : Net Value) : Prop where
  broker : b.broker = n.broker
  dealer : b.dealer = n.dealer
  gone : ∀ s, b.conns s = none ↔ n.conns s = none
  conn : ∀ s kb k, b.conns s = some kb → n.conns s = some k → Corresponds (cs s) kb k

end Wamp.Spec.Net
