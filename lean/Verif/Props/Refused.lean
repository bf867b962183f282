import Verif.Props.Handshake
import Verif.Props.Sharing

/-!
# A client that is not let in, C85

As in C63: `c` is the serializer's codec, which carries each message of the exchange; `cr` are any primitives.
-/

namespace Wamp
open Spec

variable {W : Type} (c : Codec W) (cr : Crypto)

/-- The ABORT the acceptor sends. -/
def refusal (args : Option (List Value)) : Message := .abort ⟨[], "wamp.error.authentication_failed", args, none⟩

/-- The arguments of the ABORT do not survive reading it. -/
theorem refusal_carried {c : Codec W} {args : Option (List Value)} (h : Carries c (refusal args)) :
    ∃ w, c.serialize (refusal args) = .ok w ∧ c.deserialize w = .ok (refusal none) := by
  obtain ⟨w, h1, h2⟩ := h
  exact ⟨w, h1, C10_serializer_received c (refusal args) (by trivial) (fun w' h' => by rw [h1] at h'; cases h'; exact h2) w h1⟩

/-- HELLO, ABORT. -/
theorem refused_two (au : ClientAuthenticator) (env env2 : AuthEnv) (roles : Option PyDict) (realm : String) (a a1 : Acceptor)
    (args : Option (List Value)) (hr : RolesOk (roles.getD CLIENT_ROLES))
    (h : a.receiveMessage cr env (.hello ((Joiner.init realm).hello au roles)) = (a1, .ok (some (refusal args))))
    (hd : a1.sessionDetails = none)
    (hc1 : Carries c (.hello ((Joiner.init realm).hello au roles))) (hc2 : Carries c (refusal args)) :
    HandshakeRefused c cr au env env2 roles (Joiner.init realm) a := by
  obtain ⟨b1, s1, d1⟩ := carried hc1 (show Valid (.hello _) from hr) rfl
  obtain ⟨b2, s2, d2⟩ := refusal_carried hc2
  refine ⟨{ Joiner.init realm with state := .helloSent }, b1, a1, b2, ?_, .inl ⟨?_, { Joiner.init realm with state := .helloSent }, ?_, ?_, ?_⟩⟩
  · simp [Joiner.sendHello, Joiner.sendHelloMessage, s1]
  · simp only [refusal] at h s2; simp [Acceptor.receive, d1, h, s2, Except.map]
  · simp [Joiner.receive, d2, Joiner.receiveMessage, refusal]
  · exact ⟨_, rfl⟩
  · exact ⟨_, by unfold Acceptor.getSessionDetails; rw [hd]⟩

/-- HELLO, CHALLENGE, AUTHENTICATE, ABORT. -/
theorem refused_four (au : ClientAuthenticator) (env env2 : AuthEnv) (roles : Option PyDict) (realm : String) (a a1 a2 : Acceptor)
    (ch : Challenge) (ans : Authenticate) (args : Option (List Value)) (hr : RolesOk (roles.getD CLIENT_ROLES))
    (h : a.receiveMessage cr env (.hello ((Joiner.init realm).hello au roles)) = (a1, .ok (some (.challenge ch))))
    (hans : au.authenticate ch = .ok ans)
    (h2 : a1.receiveMessage cr env2 (.authenticate ans) = (a2, .ok (some (refusal args))))
    (hd : a2.sessionDetails = none)
    (hc1 : Carries c (.hello ((Joiner.init realm).hello au roles))) (hc2 : Carries c (.challenge ch))
    (hc3 : Carries c (.authenticate ans)) (hc4 : Carries c (refusal args)) :
    HandshakeRefused c cr au env env2 roles (Joiner.init realm) a := by
  obtain ⟨b1, s1, d1⟩ := carried hc1 (show Valid (.hello _) from hr) rfl
  obtain ⟨b2, s2, d2⟩ := carried hc2 (by trivial) rfl
  obtain ⟨b3, s3, d3⟩ := carried hc3 (by trivial) rfl
  obtain ⟨b4, s4, d4⟩ := refusal_carried hc4
  refine ⟨{ Joiner.init realm with state := .helloSent }, b1, a1, b2, ?_, .inr ⟨?_, { Joiner.init realm with state := .authenticateSent },
    b3, a2, b4, { Joiner.init realm with state := .authenticateSent }, ?_, ?_, ?_, ?_, ?_⟩⟩
  · simp [Joiner.sendHello, Joiner.sendHelloMessage, s1]
  · simp [Acceptor.receive, d1, h, s2, Except.map]
  · simp [Joiner.receive, d2, Joiner.receiveMessage, hans, s3, Except.map]
  · simp only [refusal] at h2 s4; simp [Acceptor.receive, d3, h2, s4, Except.map]
  · simp [Joiner.receive, d4, Joiner.receiveMessage, refusal]
  · exact ⟨_, rfl⟩
  · exact ⟨_, by unfold Acceptor.getSessionDetails; rw [hd]⟩

variable (env env2 : AuthEnv) (roles aroles : Option PyDict) (realm : String) (sid : PyInt) (args : List Value)
  (hr : RolesOk (roles.getD CLIENT_ROLES))

include hr in
/-- Anonymous: the authenticator refuses. -/
theorem C85_anonymous (authid : String) (extra : Option PyDict)
    (ha : env.authenticate (.anonymous realm (some authid) (some (extra.getD []))) = .error args)
    (hc1 : Carries c (.hello ((Joiner.init realm).hello (anonymousAuthenticator authid extra) roles)))
    (hc2 : Carries c (refusal (some args))) :
    HandshakeRefused c cr (anonymousAuthenticator authid extra) env env2 roles (Joiner.init realm) (Acceptor.init true aroles sid) := by
  refine refused_two c cr _ env env2 roles realm _ { Acceptor.init true aroles sid with authMethod := .str "anonymous", hello := some ((Joiner.init realm).hello (anonymousAuthenticator authid extra) roles) } (some args) hr ?_ rfl hc1 hc2
  simp [Acceptor.receiveMessage, Acceptor.receiveHello, Acceptor.init, Acceptor.chooseMethod, Joiner.hello, Joiner.init,
    anonymousAuthenticator, ha, refusal, Acceptor.authFailed, AUTHENTICATION_FAILED]

include hr in
/-- Ticket: the authenticator refuses the ticket. -/
theorem C85_ticket (authid ticket : String) (extra : Option PyDict)
    (ha : env2.authenticate (.ticket realm (some authid) (some (extra.getD [])) ticket) = .error args)
    (hc1 : Carries c (.hello ((Joiner.init realm).hello (ticketAuthenticator authid ticket extra) roles)))
    (hc2 : Carries c (.challenge ⟨"ticket", []⟩)) (hc3 : Carries c (.authenticate ⟨ticket, []⟩))
    (hc4 : Carries c (refusal (some args))) :
    HandshakeRefused c cr (ticketAuthenticator authid ticket extra) env env2 roles (Joiner.init realm) (Acceptor.init true aroles sid) := by
  refine refused_four c cr _ env env2 roles realm _
    { Acceptor.init true aroles sid with authMethod := .str "ticket", hello := some ((Joiner.init realm).hello (ticketAuthenticator authid ticket extra) roles), state := .challengeSent }
    { Acceptor.init true aroles sid with authMethod := .str "ticket", hello := some ((Joiner.init realm).hello (ticketAuthenticator authid ticket extra) roles), state := .challengeSent }
    ⟨"ticket", []⟩ ⟨ticket, []⟩ (some args) hr ?_ rfl ?_ rfl hc1 hc2 hc3 hc4
  · simp [Acceptor.receiveMessage, Acceptor.receiveHello, Acceptor.init, Acceptor.chooseMethod, Joiner.hello, Joiner.init,
        ticketAuthenticator]
  · simp [Acceptor.receiveMessage, Acceptor.receiveAuthenticate, Acceptor.init, Joiner.hello, Joiner.init,
        ticketAuthenticator, ha, refusal, Acceptor.authFailed, AUTHENTICATION_FAILED]

include hr in
/-- WAMP-CRA: the authenticator refuses at HELLO. -/
theorem C85_wampcra_refused (authid secret : String) (extra : Option PyDict)
    (ha : env.authenticate (.wampcra realm (some authid) (some (extra.getD []))) = .error args)
    (hc1 : Carries c (.hello ((Joiner.init realm).hello (wampcraAuthenticator cr authid secret extra) roles)))
    (hc2 : Carries c (refusal (some args))) :
    HandshakeRefused c cr (wampcraAuthenticator cr authid secret extra) env env2 roles (Joiner.init realm) (Acceptor.init true aroles sid) := by
  refine refused_two c cr _ env env2 roles realm _ { Acceptor.init true aroles sid with authMethod := .str "wampcra", hello := some ((Joiner.init realm).hello (wampcraAuthenticator cr authid secret extra) roles) } (some args) hr ?_ rfl hc1 hc2
  simp [Acceptor.receiveMessage, Acceptor.receiveHello, Acceptor.init, Acceptor.chooseMethod, Joiner.hello, Joiner.init,
    wampcraAuthenticator, ha, refusal, Acceptor.authFailed, AUTHENTICATION_FAILED]

include hr in
/-- WAMP-CRA: the authenticator's secret is `secret'`, the client's is `secret`, and their MACs of the challenge differ. -/
theorem C85_wampcra_wrong_secret (authid secret secret' : String) (extra : Option PyDict) (r : Response)
    (ha : env.authenticate (.wampcra realm (some authid) (some (extra.getD []))) = .ok r) (hs : r.secret? = some secret')
    (ch : String) (hch : ch = generateWampcraChallenge env.nonce env.now sid r.authid r.authrole "dynamic")
    (hne : cr.hmac (utf8 secret) (utf8 ch) ≠ cr.hmac (utf8 secret') (utf8 ch))
    (hc1 : Carries c (.hello ((Joiner.init realm).hello (wampcraAuthenticator cr authid secret extra) roles)))
    (hc2 : Carries c (.challenge ⟨"wampcra", [(.str "challenge", .str ch)]⟩))
    (hc3 : Carries c (.authenticate ⟨b64encode (cr.hmac (utf8 secret) (utf8 ch)), []⟩))
    (hc4 : Carries c (refusal none)) :
    HandshakeRefused c cr (wampcraAuthenticator cr authid secret extra) env env2 roles (Joiner.init realm)
      (Acceptor.init true aroles sid) := by
  have hv : verifyWampcraSignature cr (b64encode (cr.hmac (utf8 secret) (utf8 ch))) ch (utf8 secret') = .ok false := by
    unfold verifyWampcraSignature signWampcraChallenge
    simp [b64decode_b64encode, hne]
  let a1 : Acceptor := { Acceptor.init true aroles sid with authMethod := .str "wampcra", hello := some ((Joiner.init realm).hello (wampcraAuthenticator cr authid secret extra) roles), response := some r, secret := some secret', state := .challengeSent, challenge := some ch }
  refine refused_four c cr _ env env2 roles realm _ a1 { a1 with state := .aborted }
    ⟨"wampcra", [(.str "challenge", .str ch)]⟩ ⟨b64encode (cr.hmac (utf8 secret) (utf8 ch)), []⟩ none hr ?_ ?_ ?_ rfl hc1 hc2 hc3 hc4
  · simp [Acceptor.receiveMessage, Acceptor.receiveHello, Acceptor.init, Acceptor.chooseMethod, Joiner.hello, Joiner.init,
        wampcraAuthenticator, ha, hs, a1, hch]
  · exact C65_client_plain cr secret ch [(.str "challenge", .str ch)] (.inl rfl) rfl
  · simp [Acceptor.receiveMessage, Acceptor.receiveAuthenticate, Acceptor.init, a1, hv, refusal, Acceptor.authFailed, AUTHENTICATION_FAILED]

include hr in
/-- Cryptosign: the authenticator refuses the announced key. -/
theorem C85_cryptosign_refused (au : ClientAuthenticator) (authid privateKey : String) (extra : Option PyDict) (pk : Value)
    (hau : cryptosignAuthenticator cr authid privateKey extra = .ok au)
    (hk : PyDict.get? au.authExtra "pubkey" = some pk) (hne : pk ≠ .none)
    (ha : env.authenticate (.cryptosign realm (some authid) (some au.authExtra) pk) = .error args)
    (hc1 : Carries c (.hello ((Joiner.init realm).hello au roles)))
    (hc2 : Carries c (refusal (some args))) :
    HandshakeRefused c cr au env env2 roles (Joiner.init realm) (Acceptor.init true aroles sid) := by
  have hm : au.authMethod = "cryptosign" ∧ au.authid = some authid := by
    unfold cryptosignAuthenticator at hau
    cases hs : unhexlify privateKey with
    | error e => rw [hs] at hau; cases hau
    | ok seed =>
      rw [hs] at hau
      simp only [bind, Except.bind, pure, Except.pure] at hau
      split at hau
      · cases hau
      · injection hau with hau; rw [← hau]; exact ⟨rfl, rfl⟩
  refine refused_two c cr _ env env2 roles realm _ { Acceptor.init true aroles sid with authMethod := .str "cryptosign", hello := some ((Joiner.init realm).hello au roles) } (some args) hr ?_ rfl hc1 hc2
  simp [Acceptor.receiveMessage, Acceptor.receiveHello, Acceptor.init, Acceptor.chooseMethod, Joiner.hello, Joiner.init,
    hm.1, hm.2, PyDict.getD, hk, hne, ha, refusal, Acceptor.authFailed, AUTHENTICATION_FAILED]

include hr in
/-- Cryptosign: the announced key has 32 bytes and does not open what the client signs. -/
theorem C85_cryptosign_wrong_key (au : ClientAuthenticator) (authid privateKey : String)
    (extra : Option PyDict) (seed key : Bytes) (pk : Value) (r : Response)
    (hau : cryptosignAuthenticator cr authid privateKey extra = .ok au) (hseed : unhexlify privateKey = .ok seed)
    (hk : PyDict.get? au.authExtra "pubkey" = some pk) (hkk : unhexlifyValue pk = .ok key) (hl : key.length = 32)
    (ha : env.authenticate (.cryptosign realm (some authid) (some au.authExtra) pk) = .ok r)
    (hopen : cr.signOpen key (cr.sign seed env.raw ++ env.raw) = none)
    (hc1 : Carries c (.hello ((Joiner.init realm).hello au roles)))
    (hc2 : Carries c (.challenge ⟨"cryptosign", [(.str "challenge", .str (hexlify env.raw))]⟩))
    (hc3 : Carries c (.authenticate ⟨hexlify (cr.sign seed env.raw) ++ hexlify env.raw, []⟩))
    (hc4 : Carries c (refusal none)) :
    HandshakeRefused c cr au env env2 roles (Joiner.init realm) (Acceptor.init true aroles sid) := by
  have hau' : au = ⟨"cryptosign", some authid, au.authExtra, cryptosignAuthenticate cr seed⟩ := by
    unfold cryptosignAuthenticator at hau
    rw [hseed] at hau
    simp only [bind, Except.bind, pure, Except.pure] at hau
    split at hau
    · cases hau
    · injection hau with hau; rw [← hau]
  generalize hx : au.authExtra = x at *
  subst hau'
  have hne : pk ≠ .none := by rintro rfl; cases hkk
  have hv : verifyCryptosignSignature cr (hexlify (cr.sign seed env.raw) ++ hexlify env.raw) key = .ok false := by
    have := unhexlify_hexlify_append (cr.sign seed env.raw) (hexlify env.raw) env.raw (unhexlify_hexlify _)
    simp [verifyCryptosignSignature, verifyKeyOk, hl, this, hopen, bind, Except.bind, pure, Except.pure]
  let a1 : Acceptor := { Acceptor.init true aroles sid with authMethod := .str "cryptosign", hello := some ((Joiner.init realm).hello ⟨"cryptosign", some authid, x, cryptosignAuthenticate cr seed⟩ roles), response := some r, publicKey := pk, state := .challengeSent }
  refine refused_four c cr _ env env2 roles realm _ a1 { a1 with state := .aborted }
    ⟨"cryptosign", [(.str "challenge", .str (hexlify env.raw))]⟩
    ⟨hexlify (cr.sign seed env.raw) ++ hexlify env.raw, []⟩ none hr ?_ ?_ ?_ rfl hc1 hc2 hc3 hc4
  · simp [Acceptor.receiveMessage, Acceptor.receiveHello, Acceptor.init, Acceptor.chooseMethod, Joiner.hello, Joiner.init,
      PyDict.getD, hk, hne, ha, generateCryptosignChallenge, a1]
  · simp [cryptosignAuthenticate, PyDict.getD, PyDict.get?, signCryptosignChallenge, unhexlifyValue, unhexlify_hexlify, bind,
      Except.bind, pure, Except.pure]
  · simp [Acceptor.receiveMessage, Acceptor.receiveAuthenticate, Acceptor.init, a1, hkk, hv, refusal, Acceptor.authFailed, AUTHENTICATION_FAILED]

/-! ## The hypotheses can be met -/

example : HandshakeRefused exampleCodec toyCrypto
    (wampcraAuthenticator toyCrypto "bob" "guess" none) ⟨fun _ => .ok (.cra (some "bob") (some "user") "pw"), [1], "now", [2, 3]⟩
    ⟨fun _ => .error [], [], "", []⟩ none (Joiner.init "realm1") (Acceptor.init true none (.int 7)) :=
  C85_wampcra_wrong_secret exampleCodec toyCrypto _ _ none none "realm1" (.int 7) rolesOk_client "bob" "guess" "pw" none
    (.cra (some "bob") (some "user") "pw") rfl rfl _ rfl (by decide) (exampleCodec_carries _) (exampleCodec_carries _)
    (exampleCodec_carries _) (exampleCodec_carries _)

/-- The second of the two clients of `C84_false`: it announces the key of the first, and is refused. -/
example : ∃ au, cryptosignAuthenticator toyCrypto "bob" (hexlify (List.replicate 32 7))
      (some [(.str "pubkey", .str (hexlify (toyCrypto.publicKey (List.replicate 32 8))))]) = .ok au ∧
    HandshakeRefused exampleCodec toyCrypto au ⟨fun _ => .ok (.plain (some "bob") (some "user")), [1], "now", [2, 3]⟩
      ⟨fun _ => .error [], [], "", []⟩ none (Joiner.init "realm1") (Acceptor.init true none (.int 7)) := by
  have hau : cryptosignAuthenticator toyCrypto "bob" (hexlify (List.replicate 32 7))
      (some [(.str "pubkey", .str (hexlify (toyCrypto.publicKey (List.replicate 32 8))))]) =
      .ok ⟨"cryptosign", some "bob", [(.str "pubkey", .str (hexlify (toyCrypto.publicKey (List.replicate 32 8))))],
        cryptosignAuthenticate toyCrypto (List.replicate 32 7)⟩ := by
    simp [cryptosignAuthenticator, unhexlify_hexlify, bind, Except.bind, pure, Except.pure, PyDict.get?]
  exact ⟨_, hau, C85_cryptosign_wrong_key exampleCodec toyCrypto _ _ none none "realm1" (.int 7) rolesOk_client _ "bob"
    _ _ (List.replicate 32 7) (toyCrypto.publicKey (List.replicate 32 8)) _ (.plain (some "bob") (some "user")) hau
    (unhexlify_hexlify _) rfl (unhexlify_hexlify _) (by decide) rfl (by decide) (exampleCodec_carries _) (exampleCodec_carries _)
    (exampleCodec_carries _) (exampleCodec_carries _)⟩

/-- A server that knows nobody. -/
def closed : AuthEnv := ⟨fun _ => .error [.str "closed"], [1], "now", [2, 3]⟩

example : HandshakeRefused exampleCodec toyCrypto (anonymousAuthenticator "x" none) closed closed none (Joiner.init "realm1")
    (Acceptor.init true none (.int 7)) :=
  C85_anonymous exampleCodec toyCrypto _ _ none none "realm1" (.int 7) [.str "closed"] rolesOk_client "x" none rfl (exampleCodec_carries _) (exampleCodec_carries _)

/-- Bob's ticket is not "guess". -/
example : HandshakeRefused exampleCodec toyCrypto (ticketAuthenticator "bob" "guess" none) guests guests none (Joiner.init "realm1")
    (Acceptor.init true none (.int 7)) :=
  C85_ticket exampleCodec toyCrypto _ _ none none "realm1" (.int 7) [.str "who are you?"] rolesOk_client "bob" "guess" none rfl (exampleCodec_carries _)
    (exampleCodec_carries _) (exampleCodec_carries _) (exampleCodec_carries _)

example : HandshakeRefused exampleCodec toyCrypto (wampcraAuthenticator toyCrypto "bob" "pw" none) guests guests none (Joiner.init "realm1")
    (Acceptor.init true none (.int 7)) :=
  C85_wampcra_refused exampleCodec toyCrypto _ _ none none "realm1" (.int 7) [.str "who are you?"] rolesOk_client "bob" "pw" none rfl
    (exampleCodec_carries _) (exampleCodec_carries _)

example : HandshakeRefused exampleCodec toyCrypto bobsKey closed closed none (Joiner.init "realm1") (Acceptor.init true none (.int 7)) :=
  C85_cryptosign_refused exampleCodec toyCrypto _ _ none none "realm1" (.int 7) [.str "closed"] rolesOk_client bobsKey "bob" _ none _ bobsKey_eq rfl nofun rfl
    (exampleCodec_carries _) (exampleCodec_carries _)

end Wamp
