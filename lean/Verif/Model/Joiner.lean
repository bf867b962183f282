import Verif.Model.Auth
import Verif.Model.Types

/-!
# Client side of the handshake — `wampproto/joiner.py`

The client authenticator is an input of every call, so it may be stateful and answer differently every time.
-/

namespace Wamp

/-- `CLIENT_ROLES` (`joiner.py:8-13`) -/
def CLIENT_ROLES : PyDict :=
  [(.str "caller", .dict [(.str "features", .dict [])]), (.str "callee", .dict [(.str "features", .dict [])]),
   (.str "publisher", .dict [(.str "features", .dict [])]), (.str "subscriber", .dict [(.str "features", .dict [])])]

/-- `Joiner.STATE_*` (`joiner.py:17-20`) -/
inductive JState where
  | none | helloSent | authenticateSent | joined
  deriving DecidableEq, Repr

/-- `Joiner` (`joiner.py:16-33`) -/
structure Joiner where
  realm : String
  state : JState := .none
  sessionDetails : Option SessionDetails := .none
  deriving DecidableEq, Repr

namespace Joiner

/-- `Joiner(realm, serializer, authenticator)` (`joiner.py:22-33`) -/
def init (realm : String) : Joiner := { realm }

/-- The authenticator used if none is given (`joiner.py:30`) -/
def defaultAuthenticator : ClientAuthenticator := anonymousAuthenticator "" (some [])

/-- The HELLO of `send_hello` (`joiner.py:36-47`) -/
def hello (au : ClientAuthenticator) (j : Joiner) (roles : Option PyDict) : Hello :=
  ⟨j.realm, roles.getD CLIENT_ROLES, au.authid, some [.str au.authMethod], some au.authExtra⟩

/-- `send_hello` without the final `serialize` (`joiner.py:35-49`) -/
def sendHelloMessage (au : ClientAuthenticator) (j : Joiner) (roles : Option PyDict) : Joiner × Message :=
  ({ j with state := .helloSent }, .hello (j.hello au roles))

/-- `send_hello` (`joiner.py:35-50`): the state is set before serializing. -/
def sendHello {W : Type} (c : Codec W) (au : ClientAuthenticator) (j : Joiner) (roles : Option PyDict) : Joiner × Except Exc W :=
  let (j, m) := j.sendHelloMessage au roles
  (j, c.serialize m)

/-- `receive_message` (`joiner.py:59-77`) -/
def receiveMessage (au : ClientAuthenticator) (j : Joiner) (msg : Message) : Joiner × Except Exc (Option Message) :=
  match msg with
  | .welcome m =>
    if j.state ≠ .helloSent ∧ j.state ≠ .authenticateSent then
      (j, .error (.valueError "received welcome when it was not expected"))
    else ({ j with sessionDetails := some ⟨m.sessionId, j.realm, m.authid, m.authrole⟩, state := .joined }, .ok none)
  | .challenge m =>
    if j.state ≠ .helloSent then (j, .error (.valueError "received welcome when it was not expected"))
    else match au.authenticate m with
      | .error e => (j, .error e)
      | .ok authenticate => ({ j with state := .authenticateSent }, .ok (some (.authenticate authenticate)))
  | .abort m => (j, .error (.applicationError m.reason m.args m.kwargs))
  | _ => (j, .error (.valueError "received unknown message"))

/-- `receive` (`joiner.py:52-57`) -/
def receive {W : Type} (c : Codec W) (au : ClientAuthenticator) (j : Joiner) (data : W) : Joiner × Except Exc (Option W) :=
  match c.deserialize data with
  | .error e => (j, .error e)
  | .ok msg =>
    match j.receiveMessage au msg with
    | (j, .error e) => (j, .error e)
    | (j, .ok (some (.authenticate m))) => (j, (c.serialize (.authenticate m)).map some)
    | (j, .ok _) => (j, .ok none)

/-- `get_session_details` (`joiner.py:79-83`) -/
def getSessionDetails (j : Joiner) : Except Exc SessionDetails :=
  match j.sessionDetails with
  | none => .error (.valueError "session is not setup yet")
  | some d => .ok d

/-! ## Histories -/

/-- A call. -/
inductive Op where
  | sendHello (au : ClientAuthenticator) (roles : Option PyDict)
  | receive (au : ClientAuthenticator) (msg : Message)

/-- The joiner after a call. -/
def step (j : Joiner) : Op → Joiner
  | .sendHello au roles => (j.sendHelloMessage au roles).1
  | .receive au msg => (j.receiveMessage au msg).1

/-- The joiner after the calls, in order. -/
def after (j : Joiner) (cs : List Op) : Joiner := cs.foldl step j

/-- What `receive_message` returns or raises after the calls. -/
def reply (j : Joiner) (cs : List Op) (au : ClientAuthenticator) (msg : Message) : Except Exc (Option Message) :=
  ((after j cs).receiveMessage au msg).2

end Joiner
end Wamp
