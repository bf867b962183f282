import Verif.Model.Auth
import Verif.Model.Types

/-!
# Server side of the handshake — `wampproto/acceptor.py`

The server authenticator, randomness and the clock are inputs of every call (`AuthEnv`), so the authenticator may be
stateful and answer differently every time.
-/

namespace Wamp

/-- `ROUTER_ROLES` (`acceptor.py:7-10`) -/
def ROUTER_ROLES : PyDict :=
  [(.str "dealer", .dict [(.str "features", .dict [])]), (.str "broker", .dict [(.str "features", .dict [])])]

/-- `uris.AUTHENTICATION_FAILED` (`uris.py:4`) -/
def AUTHENTICATION_FAILED : String := "wamp.error.authentication_failed"

/-- What one call may draw from the outside. -/
structure AuthEnv where
  /-- `self._authenticator.authenticate(request)`: a response, or the `args` of the exception it raised.
  Simplification: it returns a `Response`, as its signature says. -/
  authenticate : Request → Except (List Value) Response
  /-- `random.randbytes(16)` in `generate_wampcra_challenge` -/
  nonce : Bytes
  /-- `utcnow()` -/
  now : String
  /-- `random.randbytes(32)` in `generate_cryptosign_challenge` -/
  raw : Bytes

/-- `Acceptor.STATE_*` (`acceptor.py:14-18`; `STATE_HELLO_RECEIVED` is never used) -/
inductive AState where
  | none | challengeSent | welcomeSent | aborted
  deriving DecidableEq, Repr

/-- `Acceptor` (`acceptor.py:13-45`); `hasAuthenticator` says whether `authenticator` was given. -/
structure Acceptor where
  hasAuthenticator : Bool
  roles : PyDict
  sessionId : PyInt
  state : AState := .none
  authMethod : Value := .none
  hello : Option Hello := .none
  response : Option Response := .none
  sessionDetails : Option SessionDetails := .none
  publicKey : Value := .none
  challenge : Option String := .none
  secret : Option String := .none
  deriving DecidableEq, Repr

namespace Acceptor

/-- `Acceptor(serializer, authenticator, roles)` (`acceptor.py:25-45`); `sessionId` is `generate_session_id()`. -/
def init (hasAuthenticator : Bool) (roles : Option PyDict) (sessionId : PyInt) : Acceptor :=
  { hasAuthenticator, roles := roles.getD ROUTER_ROLES, sessionId }

/-- `messages.Abort(messages.AbortFields({}, uris.AUTHENTICATION_FAILED, args=...))` -/
def authFailed (args : Option (List Value)) : Message := .abort ⟨[], AUTHENTICATION_FAILED, args, none⟩

/-- Emitting the WELCOME: set the state, build it, remember the session details
(`acceptor.py:64-70`, `88-99`, `152-164`, `170-182`, `192-202`). -/
def welcome (a : Acceptor) (realm : String) (authid authrole authmethod : Option String) :
    Acceptor × Except Exc (Option Message) :=
  let w : Welcome := ⟨a.sessionId, a.roles, authid, authrole, authmethod, []⟩
  ({ a with state := .welcomeSent, sessionDetails := some ⟨w.sessionId, realm, w.authid, w.authrole⟩ }, .ok (some (.welcome w)))

/-- The auth method used for a HELLO (`acceptor.py:72-75`): the first one offered, "anonymous" if none is. -/
def chooseMethod (msg : Hello) : Value :=
  match msg.authmethods with
  | some (m :: _) => m
  | _ => .str "anonymous"

/-- HELLO (`acceptor.py:59-141`) -/
def receiveHello (cr : Crypto) (env : AuthEnv) (a : Acceptor) (msg : Hello) : Acceptor × Except Exc (Option Message) :=
  if a.state ≠ .none then (a, .error (.valueError "unknown state"))
  else if a.hasAuthenticator = false then a.welcome msg.realm (some "anonymous") (some "anonymous") (some "anonymous")
  else
    let method := chooseMethod msg
    let a := { a with authMethod := method, hello := some msg }
    if method = .str "anonymous" then
      match env.authenticate (.anonymous msg.realm msg.authid msg.authextra) with
      | .error args => (a, .ok (some (authFailed (some args))))
      | .ok response => a.welcome msg.realm response.authid response.authrole (some "anonymous")
    else if method = .str "cryptosign" then
      match msg.authextra with
      | none => (a, .error .attributeError)
      | some extra =>
        let publicKey := PyDict.getD extra "pubkey"
        if publicKey = .none then (a, .error (.valueError "authextra must contain pubkey for cryptosign"))
        else match env.authenticate (.cryptosign msg.realm msg.authid msg.authextra publicKey) with
          | .error args => (a, .ok (some (authFailed (some args))))
          | .ok response =>
            let challenge := generateCryptosignChallenge env.raw
            ({ a with response := some response, publicKey := publicKey, state := .challengeSent },
             .ok (some (.challenge ⟨"cryptosign", [(.str "challenge", .str challenge)]⟩)))
    else if method = .str "wampcra" then
      match env.authenticate (.wampcra msg.realm msg.authid msg.authextra) with
      | .error args => (a, .ok (some (authFailed (some args))))
      | .ok response =>
        match response.secret? with
        | none => (a, .error (.valueError "invalid response type for WAMPCRA"))
        | some secret =>
          let challenge := generateWampcraChallenge env.nonce env.now a.sessionId response.authid response.authrole "dynamic"
          ({ a with response := some response, secret := some secret, state := .challengeSent, challenge := some challenge },
           .ok (some (.challenge ⟨"wampcra", [(.str "challenge", .str challenge)]⟩)))
    else if method = .str "ticket" then
      ({ a with state := .challengeSent }, .ok (some (.challenge ⟨"ticket", []⟩)))
    else (a, .error (.valueError "unknown method"))

/-- The WELCOME of the signature methods (`acceptor.py:152-164`, `170-182`): attribute access on a missing response or
hello would be an AttributeError; the state has been set before. -/
def welcomeResponse (a : Acceptor) : Acceptor × Except Exc (Option Message) :=
  match a.response, a.hello with
  | some r, some h => a.welcome h.realm r.authid r.authrole none
  | _, _ => ({ a with state := .welcomeSent }, .error .attributeError)

/-- AUTHENTICATE (`acceptor.py:142-202`) -/
def receiveAuthenticate (cr : Crypto) (env : AuthEnv) (a : Acceptor) (msg : Authenticate) :
    Acceptor × Except Exc (Option Message) :=
  if a.state ≠ .challengeSent then (a, .error (.valueError "unknown state"))
  else if a.authMethod = .str "cryptosign" then
    match unhexlifyValue a.publicKey with
    | .error e => (a, .error e)
    | .ok pk =>
      match verifyCryptosignSignature cr msg.signature pk with
      | .error e => (a, .error e)
      | .ok false => ({ a with state := .aborted }, .ok (some (authFailed none)))
      | .ok true => a.welcomeResponse
  else if a.authMethod = .str "wampcra" then
    match a.secret, a.challenge with
    | some secret, some challenge =>
      match verifyWampcraSignature cr msg.signature challenge (utf8 secret) with
      | .error e => (a, .error e)
      | .ok false => ({ a with state := .aborted }, .ok (some (authFailed none)))
      | .ok true => a.welcomeResponse
    | _, _ => (a, .error .attributeError)
  else if a.authMethod = .str "ticket" then
    match a.hello with
    | none => (a, .error .attributeError)
    | some hello =>
      match env.authenticate (.ticket hello.realm hello.authid hello.authextra msg.signature) with
      | .error args => (a, .ok (some (authFailed (some args))))
      | .ok response => a.welcome hello.realm response.authid response.authrole none
  else (a, .ok none)

/-- `receive_message` (`acceptor.py:55-204`) -/
def receiveMessage (cr : Crypto) (env : AuthEnv) (a : Acceptor) (msg : Message) : Acceptor × Except Exc (Option Message) :=
  if a.state = .welcomeSent then (a, .error (.valueError "session was established, not expecting any new messages"))
  else match msg with
    | .hello m => a.receiveHello cr env m
    | .authenticate m => a.receiveAuthenticate cr env m
    | .abort _ => ({ a with state := .aborted }, .ok none)
    | _ => (a, .ok none)

/-- `receive` (`acceptor.py:47-53`): `serialize(None)` is an AttributeError. -/
def receive {W : Type} (c : Codec W) (cr : Crypto) (env : AuthEnv) (a : Acceptor) (data : W) :
    Acceptor × Except Exc (W × Bool) :=
  match c.deserialize data with
  | .error e => (a, .error e)
  | .ok msg =>
    match a.receiveMessage cr env msg with
    | (a, .error e) => (a, .error e)
    | (a, .ok none) => (a, .error .attributeError)
    | (a, .ok (some toSend)) =>
      let done := match toSend with | .welcome _ | .abort _ => true | _ => false
      (a, (c.serialize toSend).map (·, done))

/-- `is_aborted` (`acceptor.py:206-207`) -/
def isAborted (a : Acceptor) : Bool := a.state = .aborted

/-- `get_session_details` (`acceptor.py:209-213`) -/
def getSessionDetails (a : Acceptor) : Except Exc SessionDetails :=
  match a.sessionDetails with
  | none => .error (.valueError "session is not setup yet")
  | some d => .ok d

/-! ## Histories -/

/-- A received message, with what the outside would answer during that call. -/
abbrev In := AuthEnv × Message

/-- The acceptor after receiving the messages in order. -/
def after (cr : Crypto) (a : Acceptor) (ins : List In) : Acceptor :=
  ins.foldl (fun a i => (a.receiveMessage cr i.1 i.2).1) a

/-- What the acceptor returns or raises for a message received after `ins`. -/
def reply (cr : Crypto) (a : Acceptor) (ins : List In) (i : In) : Except Exc (Option Message) :=
  ((after cr a ins).receiveMessage cr i.1 i.2).2

end Acceptor
end Wamp
