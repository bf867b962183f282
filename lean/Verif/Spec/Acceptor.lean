import Verif.Model.Acceptor

/-!
# Specification vocabulary for the handshake

Only received messages, replies and what the authenticator answered are mentioned, not the acceptor's fields.
-/

namespace Wamp.Spec.Hs
open Wamp.Acceptor (In reply)

/-- The first auth method a HELLO offers; without any it asks for "anonymous". -/
def offered (h : Hello) : Value :=
  match h.authmethods with
  | some (m :: _) => m
  | _ => .str "anonymous"

/-- The public key a HELLO announces. -/
def announcedKey (h : Hello) : Option Value := h.authextra.bind fun x => PyDict.get? x "pubkey"

variable (cr : Crypto) (a : Acceptor)

/-- Earlier in the history HELLO `h` was answered with CHALLENGE `ch`; `env` is what the outside answered at that time. -/
def Challenged (ins : List In) (env : AuthEnv) (h : Hello) (ch : Challenge) : Prop :=
  ∃ pre post, ins = pre ++ (env, .hello h) :: post ∧ reply cr a pre (env, .hello h) = .ok (some (.challenge ch))

/-- The authenticator approved, with response `r`, exactly what HELLO `h` asked for — for "ticket" together with the
ticket now presented (`now` is what the outside answers during the current call, `then_` during the HELLO). -/
def Approved (then_ now : AuthEnv) (h : Hello) (signature : String) (r : Response) : Prop :=
  (offered h = .str "ticket" ∧ now.authenticate (.ticket h.realm h.authid h.authextra signature) = .ok r) ∨
  (offered h = .str "wampcra" ∧ then_.authenticate (.wampcra h.realm h.authid h.authextra) = .ok r) ∨
  (offered h = .str "cryptosign" ∧ ∃ pk, announcedKey h = some pk ∧
    then_.authenticate (.cryptosign h.realm h.authid h.authextra pk) = .ok r)

/-- Answering `i` with a WELCOME, after `ins`, is justified by the authenticator's approval `r` of HELLO `h`. -/
def Justified (ins : List In) (i : In) (h : Hello) (r : Response) : Prop :=
  (i.2 = .hello h ∧ offered h = .str "anonymous" ∧ i.1.authenticate (.anonymous h.realm h.authid h.authextra) = .ok r) ∨
  (∃ au env ch, i.2 = .authenticate au ∧ Challenged cr a ins env h ch ∧ .str ch.authmethod = offered h ∧
    Approved env i.1 h au.signature r)

/-- The WELCOME was emitted in reply to one of these messages. -/
def Emitted (ins : List In) (w : Welcome) : Prop :=
  ∃ pre i post, ins = pre ++ i :: post ∧ reply cr a pre i = .ok (some (.welcome w))

/-- The HELLO a WELCOME sent in reply to `i` answers: `i` itself, or the HELLO that was challenged before. -/
def Answers (ins : List In) (i : In) (h : Hello) : Prop :=
  i.2 = .hello h ∨ ∃ au env ch, i.2 = .authenticate au ∧ Challenged cr a ins env h ch

/-- The WELCOME was emitted for this HELLO. -/
def Established (ins : List In) (h : Hello) (w : Welcome) : Prop :=
  ∃ pre i post, ins = pre ++ i :: post ∧ reply cr a pre i = .ok (some (.welcome w)) ∧ Answers cr a pre i h

/-- An ABORT was received before any WELCOME, or was sent because a signature did not verify (i.e. in answer to an
AUTHENTICATE for a challenge other than "ticket"). -/
def AbortSeen (ins : List In) : Prop :=
  ∃ pre i post, ins = pre ++ i :: post ∧
    ((∃ ab, i.2 = .abort ab) ∧ (∀ w, ¬ Emitted cr a pre w) ∨
     (∃ au ab env hello ch, i.2 = .authenticate au ∧ reply cr a pre i = .ok (some (.abort ab)) ∧
        Challenged cr a pre env hello ch ∧ ch.authmethod ≠ "ticket"))

/-- The message `i`, received after `pre`, moves the handshake on: it is answered with a CHALLENGE or a WELCOME, or it is
an ABORT, or an AUTHENTICATE whose signature does not verify. -/
def Moves (pre : List In) (i : In) : Prop :=
  (∃ ch, reply cr a pre i = .ok (some (.challenge ch))) ∨ (∃ w, reply cr a pre i = .ok (some (.welcome w))) ∨
  (∃ ab, i.2 = .abort ab) ∨
  (∃ m ab env hello ch, i.2 = .authenticate m ∧ reply cr a pre i = .ok (some (.abort ab)) ∧
    Challenged cr a pre env hello ch ∧ ch.authmethod ≠ "ticket")

/-- The reply is a WELCOME. -/
def isWelcome : Except Exc (Option Message) → Bool
  | .ok (some (.welcome _)) => true
  | _ => false

/-- How many WELCOMEs were emitted. -/
def welcomes (ins : List In) : Nat :=
  (List.range ins.length).countP fun n =>
    match ins[n]? with
    | some i => isWelcome (reply cr a (ins.take n) i)
    | none => false

end Wamp.Spec.Hs
