import Verif.Model.Acceptor
import Verif.Model.Joiner

/-!
# Two worlds that differ in a secret
-/

namespace Wamp.Spec.Secrecy

/-- The response of an authenticator with the secret blacked out. -/
def blind : Response → Response
  | .plain a r => .plain a r
  | .cra a r _ => .cra a r ""
  | .salted a r _ salt n k => .salted a r "" salt n k

/-- The outside of the server in two worlds: the same random numbers and the same clock, an authenticator that says the same
but for the secrets. -/
structure Twin (e e' : AuthEnv) : Prop where
  nonce : e'.nonce = e.nonce
  now : e'.now = e.now
  raw : e'.raw = e.raw
  answers : ∀ q, (e'.authenticate q).map blind = (e.authenticate q).map blind

/-- A message received in both worlds. -/
structure Both where
  here : AuthEnv
  there : AuthEnv
  message : Message

/-- The server lets the client in. -/
def LetsIn (r : Except Exc (Option Message)) : Prop := ∃ w, r = .ok (some (.welcome w))

/-! ## The client -/

/-- What happens to a joiner. -/
inductive Does where
  | hello (roles : Option PyDict)
  | receive (message : Message)

/-- The call this is for a client with the authenticator `au`. -/
def Does.call (au : ClientAuthenticator) : Does → Joiner.Op
  | .hello roles => .sendHello au roles
  | .receive m => .receive au m

/-- What the client with the authenticator `au` has to say after all this. -/
def says (realm : String) (au : ClientAuthenticator) (past : List Does) : Does → Except Exc (Option Message)
  | .hello roles => .ok (some (((Joiner.init realm).after (past.map (Does.call au))).sendHelloMessage au roles).2)
  | .receive m => (Joiner.init realm).reply (past.map (Does.call au)) au m

/-- Both say the same, or both answer a challenge. -/
def SameButAnswer (x y : Except Exc (Option Message)) : Prop :=
  x = y ∨ ∃ a a', x = .ok (some (.authenticate a)) ∧ y = .ok (some (.authenticate a'))

/-- Whether keys can be derived does not depend on the password. -/
def PasswordBlind (cr : Crypto) : Prop :=
  ∀ p p' salt n k, cr.pbkdf2 p' salt n k = cr.pbkdf2 p salt n k ∨ ∃ d d', cr.pbkdf2 p salt n k = .ok d ∧ cr.pbkdf2 p' salt n k = .ok d'

end Wamp.Spec.Secrecy
