import Verif.Spec.Acceptor

/-!
# A server, described by the situation it is in

The description remembers nothing but the HELLO it challenged, together with what the outside said when that HELLO came.
Everything sent later is computed from these.
-/

namespace Wamp.Spec.Hs
open Wamp.Acceptor (In)

/-- Where a handshake stands -/
inductive Situation where
  /-- nothing has been decided -/
  | fresh
  /-- this HELLO was challenged; the outside said `env` at that time -/
  | challenged (env : AuthEnv) (hello : Hello)
  /-- somebody was let in -/
  | joined (details : SessionDetails)
  /-- it is over -/
  | aborted

/-- What a server was made with: cryptographic primitives, whether there is an authenticator, the roles it announces and the
session id it drew. -/
structure Server where
  cr : Crypto
  guarded : Bool
  roles : PyDict
  sid : PyInt

abbrev Reaction := Situation × Except Exc (Option Message)

namespace Server

/-- Let somebody in as this. -/
def letIn (v : Server) (realm : String) (authid authrole authmethod : Option String) : Reaction :=
  (.joined ⟨v.sid, realm, authid, authrole⟩, .ok (some (.welcome ⟨v.sid, v.roles, authid, authrole, authmethod, []⟩)))

/-- Say no, with these reasons. -/
def refusal (reasons : Option (List Value)) : Except Exc (Option Message) :=
  .ok (some (.abort ⟨[], "wamp.error.authentication_failed", reasons, none⟩))

/-- Ask for a proof: `env` and the HELLO are kept. -/
def ask (env : AuthEnv) (hello : Hello) (method : String) (extra : PyDict) : Reaction :=
  (.challenged env hello, .ok (some (.challenge ⟨method, extra⟩)))

/-- The WAMP-CRA challenge for somebody the authenticator knows as `r` -/
def craChallenge (v : Server) (env : AuthEnv) (r : Response) : String :=
  generateWampcraChallenge env.nonce env.now v.sid r.authid r.authrole "dynamic"

/-- A HELLO, while nothing has been decided.  With an authenticator, the first method offered counts. -/
def onHello (v : Server) (env : AuthEnv) (h : Hello) : Reaction :=
  if ¬ v.guarded then v.letIn h.realm (some "anonymous") (some "anonymous") (some "anonymous")
  else if offered h = .str "anonymous" then
    match env.authenticate (.anonymous h.realm h.authid h.authextra) with
    | .ok r => v.letIn h.realm r.authid r.authrole (some "anonymous")
    | .error reasons => (.fresh, refusal (some reasons))
  else if offered h = .str "ticket" then ask env h "ticket" []
  else if offered h = .str "wampcra" then
    match env.authenticate (.wampcra h.realm h.authid h.authextra) with
    | .ok r =>
      if r.secret?.isSome then ask env h "wampcra" [(.str "challenge", .str (v.craChallenge env r))]
      else (.fresh, .error (.valueError "invalid response type for WAMPCRA"))
    | .error reasons => (.fresh, refusal (some reasons))
  else if offered h = .str "cryptosign" then
    if h.authextra = none then (.fresh, .error .attributeError)
    else
      let key := (announcedKey h).getD .none
      if key = .none then (.fresh, .error (.valueError "authextra must contain pubkey for cryptosign"))
      else match env.authenticate (.cryptosign h.realm h.authid h.authextra key) with
        | .ok _ => ask env h "cryptosign" [(.str "challenge", .str (hexlify env.raw))]
        | .error reasons => (.fresh, refusal (some reasons))
  else (.fresh, .error (.valueError "unknown method"))

/-- The text of an AUTHENTICATE is right, is wrong, or cannot be judged: the signature has to be Base64 of the MAC of the challenge. -/
def craJudged (v : Server) (env : AuthEnv) (r : Response) (secret signature : String) : Except Exc Bool :=
  match b64decode signature with
  | .ok mac => .ok (mac = v.cr.hmac (utf8 secret) (utf8 (v.craChallenge env r)))
  | .error .binasciiError => .ok false
  | .error e => .error e

/-- The signature has to be hexadecimal digits of something the announced key opens. -/
def signJudged (v : Server) (key : Value) (signature : String) : Except Exc Bool :=
  match unhexlifyValue key with
  | .error e => .error e
  | .ok pk =>
    if pk.length ≠ 32 then .error (.valueError "The key must be exactly 32 bytes long")
    else match unhexlify signature with
      | .error e => .error e
      | .ok signed => .ok (v.cr.signOpen pk signed).isSome

/-- Who was challenged is let in as what the authenticator said then, refused for good, or may try again. -/
def decide (v : Server) (env : AuthEnv) (h : Hello) (r : Response) : Except Exc Bool → Reaction
  | .ok true => v.letIn h.realm r.authid r.authrole none
  | .ok false => (.aborted, refusal none)
  | .error e => (.challenged env h, .error e)

/-- An AUTHENTICATE, after HELLO `h` was challenged; `now` is what the outside says now. -/
def onAuthenticate (v : Server) (env : AuthEnv) (h : Hello) (now : AuthEnv) (signature : String) : Reaction :=
  if offered h = .str "ticket" then
    match now.authenticate (.ticket h.realm h.authid h.authextra signature) with
    | .ok r => v.letIn h.realm r.authid r.authrole none
    | .error reasons => (.challenged env h, refusal (some reasons))
  else if offered h = .str "wampcra" then
    match env.authenticate (.wampcra h.realm h.authid h.authextra) with
    | .ok r => v.decide env h r (v.craJudged env r (r.secret?.getD "") signature)
    | .error _ => (.challenged env h, .ok none)
  else
    match env.authenticate (.cryptosign h.realm h.authid h.authextra ((announcedKey h).getD .none)) with
    | .ok r => v.decide env h r (v.signJudged ((announcedKey h).getD .none) signature)
    | .error _ => (.challenged env h, .ok none)

/-- What the server does with a message -/
def react (v : Server) : Situation → In → Reaction
  | .joined d, _ => (.joined d, .error (.valueError "session was established, not expecting any new messages"))
  | _, (_, .abort _) => (.aborted, .ok none)
  | .fresh, (env, .hello h) => v.onHello env h
  | s, (_, .hello _) => (s, .error (.valueError "unknown state"))
  | .challenged env h, (now, .authenticate a) => v.onAuthenticate env h now a.signature
  | s, (_, .authenticate _) => (s, .error (.valueError "unknown state"))
  | s, _ => (s, .ok none)

/-- The situation after these messages -/
def situation (v : Server) (ins : List In) : Situation := ins.foldl (fun s i => (v.react s i).1) .fresh

end Server
/-- The only messages at which a server raises something else than ValueError, in the situation it is in: anything but HELLO and
AUTHENTICATE; the first HELLO, if it asks for cryptosign without `authextra`; an AUTHENTICATE, if the key announced was neither
text nor bytes. -/
def Stumbles (v : Server) : Situation → Message → Prop
  | .joined _, _ => False
  | .fresh, .hello h => v.guarded = true ∧ offered h = .str "cryptosign" ∧ h.authextra = none
  | .challenged _ h, .authenticate _ => offered h = .str "cryptosign" ∧
      ∃ key, announcedKey h = some key ∧ (∀ t, key ≠ .str t) ∧ ∀ b, key ≠ .bytes b
  | _, .hello _ => False
  | _, .authenticate _ => False
  | _, _ => True

end Wamp.Spec.Hs
