import Verif.Model.Joiner

/-!
# Specification vocabulary for the client side of the handshake

Only calls and what they returned are mentioned.
-/

namespace Wamp.Spec.Jn
open Wamp.Joiner (Op reply)
variable (j : Joiner)

/-- The call, made after `pre`, was a WELCOME that was accepted. -/
def AcceptedWelcome (pre : List Op) (w : Welcome) : Op → Prop
  | .receive au (.welcome w') => w' = w ∧ reply j pre au (.welcome w) = .ok none
  | _ => False

/-- The call, made after `pre`, was a CHALLENGE that was answered. -/
def AnsweredChallenge (pre : List Op) : Op → Prop
  | .receive au (.challenge ch) => ∃ m, reply j pre au (.challenge ch) = .ok (some m)
  | _ => False

def isHello : Op → Prop
  | .sendHello _ _ => True
  | _ => False

/-- `send_hello` was called and no WELCOME was accepted since. -/
def AwaitsWelcome (cs : List Op) : Prop :=
  ∃ pre e post, cs = pre ++ e :: post ∧ isHello e ∧
    ∀ mid e' rest, post = mid ++ e' :: rest → ∀ w, ¬ AcceptedWelcome j (pre ++ e :: mid) w e'

/-- `send_hello` was called and since then no WELCOME was accepted and no CHALLENGE answered. -/
def AwaitsChallenge (cs : List Op) : Prop :=
  ∃ pre e post, cs = pre ++ e :: post ∧ isHello e ∧
    ∀ mid e' rest, post = mid ++ e' :: rest →
      (∀ w, ¬ AcceptedWelcome j (pre ++ e :: mid) w e') ∧ ¬ AnsweredChallenge j (pre ++ e :: mid) e'

/-- The WELCOME accepted last. -/
def LastWelcome (cs : List Op) (w : Welcome) : Prop :=
  ∃ pre e post, cs = pre ++ e :: post ∧ AcceptedWelcome j pre w e ∧
    ∀ mid e' rest, post = mid ++ e' :: rest → ∀ w, ¬ AcceptedWelcome j (pre ++ e :: mid) w e'

end Wamp.Spec.Jn
