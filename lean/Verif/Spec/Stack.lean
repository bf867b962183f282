import Verif.Spec.ByteNet
import Verif.Spec.Connection
import Verif.Model.Acceptor
import Verif.Model.Joiner

/-!
# The whole stack

As `Spec/ByteNet.lean`, but from the first byte of a connection.  Each connection is a pair of byte streams (TCP), which deliver
their bytes in pieces of any size.  The client sends a RawSocket handshake that names its serializer; the router answers with its
own; then each side writes frames: a `MessageHeader` and what the serializer made of a message.  First a `Joiner` and an `Acceptor`
carry out the login.  When the acceptor has sent WELCOME the router adds the session to the broker and the dealer; when the joiner
has received it, the client goes on with a `WAMPSession`.  Data too long for a frame is not sent; during login that is the end.
-/

namespace Wamp.Spec.Stack
open RawSocket Net

/-- What a client connects with -/
structure Config where
  format : Format
  /-- The message size it announces -/
  size : Int
  realm : String
  authenticator : ClientAuthenticator
  roles : Option PyDict := none

/-- What the router is set up with -/
structure Setup where
  crypto : Crypto
  hasAuthenticator : Bool
  roles : Option PyDict := none
  /-- The message size it announces -/
  size : Int

/-- The client at its end of a connection -/
inductive ClientEnd where
  /-- It has sent its handshake. -/
  | greeting
  /-- It has sent HELLO. -/
  | joining (j : Joiner)
  /-- It has been let in; these calls have been made on its session. -/
  | session (calls : List (WAMPSession.Op Bytes))
  /-- It has given up. -/
  | failed

/-- The router at its end of a connection -/
inductive RouterEnd where
  /-- It waits for a handshake. -/
  | greeting (sid : PyInt)
  /-- It waits for HELLO or AUTHENTICATE. -/
  | accepting (f : Format) (a : Acceptor)
  /-- It has let the client in under this session id. -/
  | attached (f : Format) (s : Int)
  /-- It has turned the client away. -/
  | closed

/-- A connection -/
structure Link where
  config : Config
  client : ClientEnd := .greeting
  router : RouterEnd
  /-- Bytes on their way to the router, and those that have arrived but are not used yet -/
  up : Bytes
  upHas : Bytes := []
  /-- Bytes on their way to the client, and those that have arrived but are not used yet -/
  down : Bytes := []
  downHas : Bytes := []

/-- The whole system -/
structure Stack where
  broker : List Broker.Op := []
  dealer : List Dealer.Op := []
  links : Nat → Option Link := fun _ => none

/-- One thing that can happen -/
inductive SAct where
  /-- A client connects; the session id is what `generate_session_id` will give out for it. -/
  | connect (c : Nat) (cfg : Config) (sid : PyInt)
  /-- So many bytes arrive at the router. -/
  | carryUp (c : Nat) (n : Nat)
  /-- So many bytes arrive at the client. -/
  | carryDown (c : Nat) (n : Nat)
  /-- The router looks at what has arrived. -/
  | serve (c : Nat) (env : AuthEnv)
  /-- The client looks at what has arrived. -/
  | hear (c : Nat)
  /-- The application of a client that has been let in asks its session to send a message. -/
  | send (c : Nat) (m : Message)
  /-- The connection ends. -/
  | drop (c : Nat)

/-- A frame; what is too long for one is not sent. -/
def frame (b : Bytes) : Bytes :=
  if b.length < 2 ^ 24 then
    match (MessageHeader.mk MSG_TYPE_WAMP b.length).toBytes with
    | .ok h => h ++ b
    | .error _ => []
  else []

/-- Frames one after the other -/
def stream (bs : List Bytes) : Bytes := bs.flatMap frame

/-- Replace one connection. -/
def Stack.set (n : Stack) (c : Nat) (l : Option Link) : Stack :=
  { n with links := fun c' => if c' = c then l else n.links c' }

/-- What the router writes to a client that is in -/
def Link.push (out : List (Int × Message)) (l : Link) : Link :=
  match l.router with
  | .attached f s => { l with down := l.down ++ stream ((inbox out s).filterMap fun m => (f.wire.serialize m).toOption) }
  | _ => l

/-- Messages to their recipients -/
def Stack.push (n : Stack) (out : List (Int × Message)) : Stack := { n with links := fun c => (n.links c).map (Link.push out) }

/-- The router handles a message from the session `s`. -/
def Stack.handle (n : Stack) (s : Int) (m : Message) : Stack :=
  match brokerCall s m, dealerCall s m with
  | some op, _ => ({ n with broker := n.broker ++ [op] }).push (brokerOut (Broker.outcome n.broker op))
  | none, some op => ({ n with dealer := n.dealer ++ [op] }).push (dealerOut (Dealer.outcome n.dealer op))
  | none, none => n

/-- The first four bytes from the client: the handshake.  The router answers with the same serializer and its own size. -/
def Link.greet (r : Setup) (l : Link) (sid : PyInt) : Link :=
  if l.upHas.length < 4 then l
  else match receiveHandshake (l.upHas.take 4) with
    | .error _ => { l with router := .closed, upHas := l.upHas.drop 4 }
    | .ok hs =>
      match formatOfType hs.protocol with
      | none => { l with router := .closed, upHas := l.upHas.drop 4 }
      | some f =>
        match sendHandshake ⟨f.type, r.size⟩ with
        | .error _ => { l with router := .closed, upHas := l.upHas.drop 4 }
        | .ok b => { l with router := .accepting f (Acceptor.init r.hasAuthenticator r.roles sid), upHas := l.upHas.drop 4, down := l.down ++ b }

/-- What the router makes of a message during login, and the bytes it writes -/
inductive Verdict where
  | away (b : Bytes)
  | more (a : Acceptor) (b : Bytes)
  | welcome (d : SessionDetails) (b : Bytes)

/-- It asks the acceptor; when that has finished, there are session details, or there are none. -/
def verdict (r : Setup) (f : Format) (a : Acceptor) (env : AuthEnv) (data : Bytes) : Verdict :=
  match a.receive f.wire r.crypto env data with
  | (_, .error _) => .away []
  | (a', .ok (b, false)) => if b.length < 2 ^ 24 then .more a' (frame b) else .away []
  | (a', .ok (b, true)) =>
    match a'.getSessionDetails with
    | .error _ => .away (frame b)
    | .ok d => if b.length < 2 ^ 24 then .welcome d (frame b) else .away []

/-- The router uses what has arrived from a client: the handshake, or one whole frame. -/
def Stack.serve (r : Setup) (n : Stack) (c : Nat) (l : Link) (env : AuthEnv) : Stack :=
  match l.router with
  | .greeting sid => n.set c (some (l.greet r sid))
  | .accepting f a =>
    match readOne l.upHas with
    | none => n
    | some (x, rest) =>
      match verdict r f a env x.payload with
      | .away b => n.set c (some { l with router := .closed, upHas := rest, down := l.down ++ b })
      | .more a' b => n.set c (some { l with router := .accepting f a', upHas := rest, down := l.down ++ b })
      | .welcome d b =>
        let n' : Stack := { n with broker := n.broker ++ [.addSession d], dealer := n.dealer ++ [.addSession d] }
        if returned (Broker.outcome n.broker (.addSession d)) ∧ returned (Dealer.outcome n.dealer (.addSession d)) then
          n'.set c (some { l with router := .attached f d.sessionId.val, upHas := rest, down := l.down ++ b })
        else n'.set c (some { l with router := .closed, upHas := rest })
  | .attached f s =>
    match readOne l.upHas with
    | none => n
    | some (x, rest) =>
      match f.wire.deserialize x.payload with
      | .error _ => n.set c (some { l with upHas := rest })
      | .ok m => (n.set c (some { l with upHas := rest })).handle s m
  | .closed => n

/-- The client uses what has arrived: the handshake, or one whole frame. -/
def Link.hear (l : Link) : Link :=
  match l.client with
  | .greeting =>
    if l.downHas.length < 4 then l
    else match receiveHandshake (l.downHas.take 4) with
      | .error _ => { l with client := .failed, downHas := l.downHas.drop 4 }
      | .ok _ =>
        match (Joiner.init l.config.realm).sendHello l.config.format.wire l.config.authenticator l.config.roles with
        | (_, .error _) => { l with client := .failed, downHas := l.downHas.drop 4 }
        | (j, .ok b) =>
          if b.length < 2 ^ 24 then { l with client := .joining j, downHas := l.downHas.drop 4, up := l.up ++ frame b }
          else { l with client := .failed, downHas := l.downHas.drop 4 }
  | .joining j =>
    match readOne l.downHas with
    | none => l
    | some (x, rest) =>
      match j.receive l.config.format.wire l.config.authenticator x.payload with
      | (_, .error _) => { l with client := .failed, downHas := rest }
      | (j', .ok (some b)) =>
        if b.length < 2 ^ 24 then { l with client := .joining j', downHas := rest, up := l.up ++ frame b }
        else { l with client := .failed, downHas := rest }
      | (j', .ok none) =>
        match j'.getSessionDetails with
        | .error _ => { l with client := .joining j', downHas := rest }
        | .ok _ => { l with client := .session [], downHas := rest }
  | .session calls =>
    match readOne l.downHas with
    | none => l
    | some (x, rest) => { l with client := .session (calls ++ [.receive x.payload]), downHas := rest }
  | .failed => l

/-- The application sends a message. -/
def Link.send (l : Link) (m : Message) : Link :=
  match l.client with
  | .session calls =>
    { l with
      client := .session (calls ++ [.sendMessage m])
      up := match WAMPSession.outcome l.config.format.wire calls (.sendMessage m) with
        | .ok (.data w) => l.up ++ frame w
        | _ => l.up }
  | _ => l

/-- One action -/
def Stack.step (r : Setup) (n : Stack) : SAct → Stack
  | .connect c cfg sid =>
    match n.links c, sendHandshake ⟨cfg.format.type, cfg.size⟩ with
    | none, .ok b => n.set c (some { config := cfg, router := .greeting sid, up := b })
    | _, _ => n
  | .carryUp c k =>
    match n.links c with
    | none => n
    | some l => n.set c (some { l with up := l.up.drop k, upHas := l.upHas ++ l.up.take k })
  | .carryDown c k =>
    match n.links c with
    | none => n
    | some l => n.set c (some { l with down := l.down.drop k, downHas := l.downHas ++ l.down.take k })
  | .serve c env =>
    match n.links c with
    | none => n
    | some l => n.serve r c l env
  | .hear c =>
    match n.links c with
    | none => n
    | some l => n.set c (some l.hear)
  | .send c m =>
    match n.links c with
    | none => n
    | some l => n.set c (some (l.send m))
  | .drop c =>
    match n.links c with
    | none => n
    | some l =>
      match l.router with
      | .attached _ s =>
        ({ n with broker := n.broker ++ [.removeSession s], dealer := n.dealer ++ [.removeSession s] } : Stack).set c none
      | _ => n.set c none

/-- The system after a schedule -/
def srun (r : Setup) (sched : List SAct) : Stack := sched.foldl (Stack.step r) {}

/-! ## What happens to the sessions -/

/-- What a step is for the network of sessions: nothing while bytes move and clients log in; a client joins when the router lets it
in; a message is routed or delivered when its frame is read. -/
def acts (r : Setup) (n : Stack) : SAct → List Act
  | .serve c env =>
    match n.links c with
    | none => []
    | some l =>
      match l.router, readOne l.upHas with
      | .accepting f a, some (x, _) =>
        match verdict r f a env x.payload with
        | .welcome d _ => [.join d]
        | _ => []
      | .attached _ s, some _ => [.route s]
      | _, _ => []
  | .hear c =>
    match n.links c with
    | none => []
    | some l =>
      match l.client, l.router, readOne l.downHas with
      | .session _, .attached _ s, some _ => [.deliver s]
      | _, _, _ => []
  | .send c m =>
    match n.links c with
    | none => []
    | some l =>
      match l.client, l.router with
      | .session _, .attached _ s => [.send s m]
      | _, _ => []
  | .drop c =>
    match n.links c with
    | none => []
    | some l =>
      match l.router with
      | .attached _ s => [.leave s]
      | _ => []
  | _ => []

/-- A schedule of the stack, as the network of sessions sees it -/
def sessions (r : Setup) (sched : List SAct) : List Act :=
  (sched.foldl (fun (x : Stack × List Act) a => (x.1.step r a, x.2 ++ acts r x.1 a)) ({}, [])).2

/-- Each session id is used with one serializer. -/
def Consistent (fmt : Int → Format) (sched : List SAct) : Prop :=
  ∀ c cfg sid, .connect c cfg sid ∈ sched → fmt sid.val = cfg.format

/-- The serializer of each session -/
def codecs (fmt : Int → Format) (s : Int) : Codec Bytes := (fmt s).wire

/-- Nothing is ever on its way that is too long for a frame. -/
def NothingTooLong (fmt : Int → Format) (sched : List Act) : Prop :=
  ∀ pre, pre <+: sched → ∀ s k, (brun (codecs fmt) pre).conns s = some k → ∀ w ∈ k.up ++ k.down, w.length < 2 ^ 24

/-- A connection and the client of the network of sessions.  A client that has not seen its WELCOME yet has done nothing. -/
structure Agrees (l : Link) (k : BConn Bytes) : Prop where
  up : l.upHas ++ l.up = stream k.up
  session : ∀ calls, l.client = .session calls → k.calls = calls ∧ l.downHas ++ l.down = stream k.down
  joining : ∀ j, l.client = .joining j → k.calls = [] ∧ k.up = [] ∧
    ∃ w b, l.config.format.wire.serialize (.welcome w) = .ok b ∧ b.length < 2 ^ 24 ∧ l.downHas ++ l.down = stream (b :: k.down)
  failed : l.client = .failed → k.calls = [] ∧ k.up = []

/-- The stack and the network of sessions: the broker and the dealer have had the same calls; the connections that are in are the
clients of the network, one for each, and they agree; and a client takes itself to be in only if the router does. -/
structure Matches (n : Stack) (b : BNet Bytes) : Prop where
  broker : n.broker = b.broker
  dealer : n.dealer = b.dealer
  in_ : ∀ c l f s, n.links c = some l → l.router = .attached f s → l.config.format = f ∧ ∃ k, b.conns s = some k ∧ Agrees l k
  back : ∀ s k, b.conns s = some k → ∃ c l f, n.links c = some l ∧ l.router = .attached f s
  one : ∀ c c' l l' f f' s, n.links c = some l → l.router = .attached f s → n.links c' = some l' → l'.router = .attached f' s → c = c'
  client : ∀ c l calls, n.links c = some l → l.client = .session calls → ∃ f s, l.router = .attached f s

end Wamp.Spec.Stack
