import Verif.Spec.Strangers
import Verif.Spec.Handshake

/-!
# The end of a login

What has to happen on a connection for the login to come to an end: three times the bytes arrive, the router looks at them, its
answer arrives, and the client looks at it.
-/

namespace Wamp.Spec.Stack

/-- A message and its answer: bytes arrive at the router, which looks at them; bytes arrive at the client, which looks at them. -/
def exchange (c up down : Nat) (env : AuthEnv) : List GAct :=
  [.act (.carryUp c up), .act (.serve c env), .act (.carryDown c down), .act (.hear c)]

/-- The login has come to an end: the client is in, and the router has let it in; or the client has given up; or the router has turned
it away. -/
def Ended (l : Link) : Prop :=
  (∃ calls f s, l.client = .session calls ∧ l.router = .attached f s) ∨ l.client = .failed ∨ l.router = .closed

/-- What joiner and acceptor send each other: HELLO, its answer, and if that is CHALLENGE, AUTHENTICATE and its answer -/
def transcript {W : Type} (c : Codec W) (cr : Crypto) (au : ClientAuthenticator) (env env2 : AuthEnv) (roles : Option PyDict) (j : Joiner)
    (a : Acceptor) : List W :=
  match j.sendHello c au roles with
  | (_, .error _) => []
  | (j, .ok hello) =>
    hello :: match a.receive c cr env hello with
      | (_, .error _) => []
      | (_, .ok (answer, true)) => [answer]
      | (a, .ok (challenge, false)) =>
        challenge :: match j.receive c au challenge with
          | (_, .ok (some authenticate)) =>
            authenticate :: match a.receive c cr env2 authenticate with
              | (_, .ok (answer, _)) => [answer]
              | (_, .error _) => []
          | _ => []

end Wamp.Spec.Stack
