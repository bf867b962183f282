import Verif.Model.Acceptor
import Verif.Model.Joiner

/-! # A handshake between a joiner and an acceptor, over bytes -/

namespace Wamp.Spec

/-- The codec can encode the message and restores what it encoded. -/
def Carries {W : Type} (c : Codec W) (m : Message) : Prop :=
  ∃ w, c.dumps (.list m.marshal) = .ok w ∧ c.loads w = .ok (.list m.marshal)

/-- The joiner sends HELLO; each side receives what the other returned, in turn; the acceptor reports completion with
WELCOME, which the joiner accepts; then both sides report the session details `d`. -/
def HandshakeAgrees {W : Type} (c : Codec W) (cr : Crypto) (au : ClientAuthenticator) (env env2 : AuthEnv) (roles : Option PyDict)
    (j : Joiner) (a : Acceptor) (d : SessionDetails) : Prop :=
  ∃ j1 b1 a1 b2, j.sendHello c au roles = (j1, .ok b1) ∧
    ((a.receive c cr env b1 = (a1, .ok (b2, true)) ∧
      ∃ j2, j1.receive c au b2 = (j2, .ok none) ∧
        j2.getSessionDetails = .ok d ∧ a1.getSessionDetails = .ok d) ∨
     (a.receive c cr env b1 = (a1, .ok (b2, false)) ∧
      ∃ j2 b3 a2 b4 j3, j1.receive c au b2 = (j2, .ok (some b3)) ∧ a1.receive c cr env2 b3 = (a2, .ok (b4, true)) ∧
        j2.receive c au b4 = (j3, .ok none) ∧ j3.getSessionDetails = .ok d ∧ a2.getSessionDetails = .ok d))

/-- The joiner sends HELLO; each side receives what the other returned, in turn; the acceptor reports completion with an
ABORT, on which the joiner raises `ApplicationError("wamp.error.authentication_failed")` without arguments; then neither side
has session details. -/
def HandshakeRefused {W : Type} (c : Codec W) (cr : Crypto) (au : ClientAuthenticator) (env env2 : AuthEnv) (roles : Option PyDict)
    (j : Joiner) (a : Acceptor) : Prop :=
  ∃ j1 b1 a1 b2, j.sendHello c au roles = (j1, .ok b1) ∧
    ((a.receive c cr env b1 = (a1, .ok (b2, true)) ∧
      ∃ j2, j1.receive c au b2 = (j2, .error (.applicationError "wamp.error.authentication_failed" none none)) ∧
        (∃ t, j2.getSessionDetails = .error (.valueError t)) ∧ (∃ t, a1.getSessionDetails = .error (.valueError t))) ∨
     (a.receive c cr env b1 = (a1, .ok (b2, false)) ∧
      ∃ j2 b3 a2 b4 j3, j1.receive c au b2 = (j2, .ok (some b3)) ∧ a1.receive c cr env2 b3 = (a2, .ok (b4, true)) ∧
        j2.receive c au b4 = (j3, .error (.applicationError "wamp.error.authentication_failed" none none)) ∧
        (∃ t, j3.getSessionDetails = .error (.valueError t)) ∧ (∃ t, a2.getSessionDetails = .error (.valueError t))))

end Wamp.Spec
