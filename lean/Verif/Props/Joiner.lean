import Verif.Proofs.JoinerInv
import Verif.Spec.Roles

/-!
# The client side of the handshake, C61 and C62

For a joiner `init realm` after any sequence `cs` of calls of `send_hello` and `receive_message`, each with any
authenticator.
-/

namespace Wamp.Joiner
open Spec.Jn Spec
variable (realm : String) (cs : List Op) (au : ClientAuthenticator)

/-! ## C61 -/

/-- A WELCOME is accepted if `send_hello` was called and no WELCOME was accepted since; otherwise it raises ValueError and
changes nothing. -/
theorem C61_welcome (w : Welcome) :
    (AwaitsWelcome (init realm) cs → reply (init realm) cs au (.welcome w) = .ok none) ∧
    (¬ AwaitsWelcome (init realm) cs → (∃ t, reply (init realm) cs au (.welcome w) = .error (.valueError t)) ∧
      after (init realm) (cs ++ [.receive au (.welcome w)]) = after (init realm) cs) := by
  have hi := inv_after realm cs
  rw [← hi.welcome]
  unfold reply
  rw [after_snoc]
  simp only [step]
  unfold receiveMessage
  simp only []
  constructor
  · intro h
    rw [if_neg (by rintro ⟨h1, h2⟩; exact h.elim h1 h2)]
  · intro h
    rw [if_pos ⟨fun e => h (.inl e), fun e => h (.inr e)⟩]
    exact ⟨⟨_, rfl⟩, rfl⟩

/-- A CHALLENGE is handed to the authenticator, whose answer is returned (or its exception raised, without changing
anything), if `send_hello` was called and since then no WELCOME was accepted and no CHALLENGE answered; otherwise it raises
ValueError and changes nothing. -/
theorem C61_challenge (ch : Challenge) :
    (AwaitsChallenge (init realm) cs →
      (∀ a, au.authenticate ch = .ok a → reply (init realm) cs au (.challenge ch) = .ok (some (.authenticate a))) ∧
      (∀ e, au.authenticate ch = .error e → reply (init realm) cs au (.challenge ch) = .error e ∧
        after (init realm) (cs ++ [.receive au (.challenge ch)]) = after (init realm) cs)) ∧
    (¬ AwaitsChallenge (init realm) cs → (∃ t, reply (init realm) cs au (.challenge ch) = .error (.valueError t)) ∧
      after (init realm) (cs ++ [.receive au (.challenge ch)]) = after (init realm) cs) := by
  have hi := inv_after realm cs
  rw [← hi.challenge]
  unfold reply
  rw [after_snoc]
  simp only [step]
  unfold receiveMessage
  simp only []
  constructor
  · intro h
    rw [if_neg (by simp [h])]
    exact ⟨fun a ha => by rw [ha], fun e he => by rw [he]; exact ⟨rfl, rfl⟩⟩
  · intro h
    rw [if_pos h]; exact ⟨⟨_, rfl⟩, rfl⟩

/-- Every message other than WELCOME, CHALLENGE and ABORT raises ValueError and changes nothing. -/
theorem C61_other (msg : Message) (h1 : ∀ w, msg ≠ .welcome w) (h2 : ∀ c, msg ≠ .challenge c) (h3 : ∀ a, msg ≠ .abort a) :
    (∃ t, reply (init realm) cs au msg = .error (.valueError t)) ∧
    after (init realm) (cs ++ [.receive au msg]) = after (init realm) cs := by
  unfold reply
  rw [after_snoc]
  simp only [step]
  cases msg
  case welcome w => exact absurd rfl (h1 w)
  case challenge w => exact absurd rfl (h2 w)
  case abort w => exact absurd rfl (h3 w)
  all_goals exact ⟨⟨_, rfl⟩, rfl⟩

/-- `get_session_details()` returns the session id, authid and authrole of the WELCOME accepted last, with the joiner's own
realm; it raises ValueError if none was accepted. -/
theorem C61_details (d : SessionDetails) :
    getSessionDetails (after (init realm) cs) = .ok d ↔
      ∃ w, LastWelcome (init realm) cs w ∧ d = ⟨w.sessionId, realm, w.authid, w.authrole⟩ := by
  have h := (inv_after realm cs).details d
  rw [show (init realm).realm = realm from rfl] at h
  rw [← h]
  unfold getSessionDetails
  cases (after (init realm) cs).sessionDetails <;> simp

theorem C61_no_details (h : ∀ w, ¬ LastWelcome (init realm) cs w) :
    ∃ t, getSessionDetails (after (init realm) cs) = .error (.valueError t) := by
  unfold getSessionDetails
  cases hd : (after (init realm) cs).sessionDetails with
  | none => exact ⟨_, rfl⟩
  | some d =>
    obtain ⟨w, hw, _⟩ := ((inv_after realm cs).details d).1 hd
    exact absurd hw (h w)

/-- The HELLO that is sent: own realm, the authenticator's identity, method and extra data, by default all
four client roles, with no features. -/
theorem C61_hello_contents {W : Type} (c : Codec W) (roles : Option PyDict) :
    ((after (init realm) cs).sendHello c au roles).2 = c.serialize (.hello
      { realm := realm, roles := match roles with | some r => r | none => plainRoles ["caller", "callee", "publisher", "subscriber"], authid := au.authid,
        authmethods := some [.str au.authMethod], authextra := some au.authExtra }) := by
  have h : (after (init realm) cs).realm = realm := (inv_after realm cs).realm
  simp only [sendHello, sendHelloMessage, hello, h]
  cases roles <;> rfl

/-- At byte level: bytes that do not decode raise the decoder's exception and change nothing; otherwise the reply of
`receive_message`, if any, is encoded. -/
theorem C61_receive_bytes {W : Type} (c : Codec W) (j : Joiner) (data : W) :
    (∀ e, c.deserialize data = .error e → j.receive c au data = (j, .error e)) ∧
    (∀ msg, c.deserialize data = .ok msg →
      (j.receive c au data).1 = (j.receiveMessage au msg).1 ∧
      (∀ e, (j.receiveMessage au msg).2 = .error e → (j.receive c au data).2 = .error e) ∧
      ((j.receiveMessage au msg).2 = .ok none → (j.receive c au data).2 = .ok none) ∧
      (∀ m, (j.receiveMessage au msg).2 = .ok (some m) → (j.receive c au data).2 = (c.serialize m).map some)) := by
  constructor
  · intro e h; unfold receive; rw [h]
  · intro msg h
    unfold receive; rw [h]; simp only []
    have only : ∀ j' m, j.receiveMessage au msg = (j', .ok (some m)) → ∃ a, m = .authenticate a := by
      intro j' m hm
      unfold receiveMessage at hm
      split at hm
      · split at hm <;> cases hm
      · split at hm
        · cases hm
        · split at hm
          · cases hm
          · injection hm with _ hm; injection hm with hm; injection hm with hm; exact ⟨_, hm.symm⟩
      · cases hm
      · cases hm
    rcases ho : j.receiveMessage au msg with ⟨j', e | _ | out⟩
    · exact ⟨rfl, (fun e h => by injection h with h; rw [h]), (fun h => by cases h), (fun m h => by cases h)⟩
    · exact ⟨rfl, (fun e h => by cases h), fun _ => rfl, (fun m h => by cases h)⟩
    · obtain ⟨a, rfl⟩ := only _ _ ho
      refine ⟨rfl, (fun e h => by cases h), (fun h => by cases h), ?_⟩
      intro m h; injection h with h; injection h with h; subst h; rfl

/-- A ticket handshake. -/
def exampleOps : List Op :=
  [.sendHello (ticketAuthenticator "bob" "t" none) none, .receive (ticketAuthenticator "bob" "t" none) (.challenge ⟨"ticket", []⟩)]
example : AwaitsWelcome (init "realm1") exampleOps := (inv_after "realm1" exampleOps).welcome.1 (by decide)
example : AwaitsChallenge (init "realm1") (exampleOps.take 1) := (inv_after "realm1" (exampleOps.take 1)).challenge.1 (by decide)
example : ¬ AwaitsChallenge (init "realm1") exampleOps := fun h => absurd ((inv_after "realm1" exampleOps).challenge.2 h) (by decide)
example : getSessionDetails (after (init "realm1")
    (exampleOps ++ [.receive (ticketAuthenticator "bob" "t" none) (.welcome ⟨.int 7, [], some "bob", some "user", none, []⟩)])) =
    .ok ⟨.int 7, "realm1", some "bob", some "user"⟩ := by decide

/-! ## C62 -/

/-- An ABORT raises ApplicationError carrying its reason, args and kwargs, whatever was called before, and changes
nothing. -/
theorem C62_abort (a : Abort) :
    reply (init realm) cs au (.abort a) = .error (.applicationError a.reason a.args a.kwargs) ∧
    after (init realm) (cs ++ [.receive au (.abort a)]) = after (init realm) cs := by
  rw [after_snoc]; exact ⟨rfl, rfl⟩

/-- The same at byte level. -/
theorem C62_abort_bytes {W : Type} (c : Codec W) (j : Joiner) (data : W) (a : Abort) (h : c.deserialize data = .ok (.abort a)) :
    j.receive c au data = (j, .error (.applicationError a.reason a.args a.kwargs)) := by
  unfold receive; rw [h]; rfl

end Wamp.Joiner
