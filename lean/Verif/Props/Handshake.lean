import Verif.Spec.Handshake
import Verif.Props.Auth
import Verif.Props.Payload

/-!
# Joiner against acceptor, C63

`c` is the serializer's codec; that it carries each message of the exchange is a hypothesis.  `cr` are any primitives; for
cryptosign they satisfy the signing law.  `env`, `env2` are what the authenticator, the random generator and the clock
answer during the acceptor's two calls.
-/

namespace Wamp
open Spec

variable {W : Type} (c : Codec W) (cr : Crypto)

theorem carried {c : Codec W} {m : Message} (h : Carries c m) (hv : Valid m) (hm : received m = m) :
    ∃ w, c.serialize m = .ok w ∧ c.deserialize w = .ok m := by
  obtain ⟨w, h1, h2⟩ := h
  refine ⟨w, h1, ?_⟩
  have := C10_serializer_received c m hv (fun w' h' => by rw [h1] at h'; cases h'; exact h2) w h1
  rw [this, hm]

/-- HELLO, WELCOME. -/
theorem agree_two (au : ClientAuthenticator) (env env2 : AuthEnv) (roles : Option PyDict) (realm : String) (a : Acceptor)
    (w : Welcome) (d : SessionDetails) (hr : RolesOk (roles.getD CLIENT_ROLES)) (hw : Valid (.welcome w))
    (h : (a.receiveMessage cr env (.hello ((Joiner.init realm).hello au roles))).2 = .ok (some (.welcome w)))
    (hd : (a.receiveMessage cr env (.hello ((Joiner.init realm).hello au roles))).1.sessionDetails = some d) (hd' : d = ⟨w.sessionId, realm, w.authid, w.authrole⟩)
    (hc1 : Carries c (.hello ((Joiner.init realm).hello au roles))) (hc2 : Carries c (.welcome w)) :
    HandshakeAgrees c cr au env env2 roles (Joiner.init realm) a d := by
  obtain ⟨b1, s1, d1⟩ := carried hc1 (show Valid (.hello _) from hr) rfl
  obtain ⟨b2, s2, d2⟩ := carried hc2 hw rfl
  rcases ho : a.receiveMessage cr env (.hello ((Joiner.init realm).hello au roles)) with ⟨a1, out⟩
  rw [ho] at h hd
  simp only at h hd
  subst h
  refine ⟨{ Joiner.init realm with state := .helloSent }, b1, a1, b2, ?_, .inl ⟨?_, ⟨realm, .joined, some d⟩, ?_, rfl, ?_⟩⟩
  · simp [Joiner.sendHello, Joiner.sendHelloMessage, s1]
  · simp [Acceptor.receive, d1, ho, s2, Except.map]
  · simp only [Joiner.receive, d2, Joiner.receiveMessage]
    rw [if_neg (by simp), hd']; rfl
  · simp [Acceptor.getSessionDetails, hd]

/-- HELLO, CHALLENGE, AUTHENTICATE, WELCOME. -/
theorem agree_four (au : ClientAuthenticator) (env env2 : AuthEnv) (roles : Option PyDict) (realm : String) (a a1 : Acceptor)
    (ch : Challenge) (ans : Authenticate) (w : Welcome) (d : SessionDetails)
    (hr : RolesOk (roles.getD CLIENT_ROLES)) (hw : Valid (.welcome w))
    (h : a.receiveMessage cr env (.hello ((Joiner.init realm).hello au roles)) = (a1, .ok (some (.challenge ch))))
    (hans : au.authenticate ch = .ok ans)
    (h2 : (a1.receiveMessage cr env2 (.authenticate ans)).2 = .ok (some (.welcome w)))
    (hd : (a1.receiveMessage cr env2 (.authenticate ans)).1.sessionDetails = some d) (hd' : d = ⟨w.sessionId, realm, w.authid, w.authrole⟩)
    (hc1 : Carries c (.hello ((Joiner.init realm).hello au roles))) (hc2 : Carries c (.challenge ch))
    (hc3 : Carries c (.authenticate ans)) (hc4 : Carries c (.welcome w)) :
    HandshakeAgrees c cr au env env2 roles (Joiner.init realm) a d := by
  obtain ⟨b1, s1, d1⟩ := carried hc1 (show Valid (.hello _) from hr) rfl
  obtain ⟨b2, s2, d2⟩ := carried hc2 (by trivial) rfl
  obtain ⟨b3, s3, d3⟩ := carried hc3 (by trivial) rfl
  obtain ⟨b4, s4, d4⟩ := carried hc4 hw rfl
  rcases ho : a1.receiveMessage cr env2 (.authenticate ans) with ⟨a2, out⟩
  rw [ho] at h2 hd
  simp only at h2 hd
  subst h2
  refine ⟨{ Joiner.init realm with state := .helloSent }, b1, a1, b2, ?_, .inr ⟨?_, { Joiner.init realm with state := .authenticateSent }, b3, a2, b4, ⟨realm, .joined, some d⟩, ?_, ?_, ?_, rfl, ?_⟩⟩
  · simp [Joiner.sendHello, Joiner.sendHelloMessage, s1]
  · simp [Acceptor.receive, d1, h, s2, Except.map]
  · simp [Joiner.receive, d2, Joiner.receiveMessage, hans, s3, Except.map]
  · simp [Acceptor.receive, d3, ho, s4, Except.map]
  · simp only [Joiner.receive, d4, Joiner.receiveMessage]
    rw [if_neg (by simp), hd']; rfl
  · simp [Acceptor.getSessionDetails, hd]

theorem rolesOk_client : RolesOk CLIENT_ROLES := by
  refine ⟨by decide, ?_⟩
  simp [CLIENT_ROLES, roleNames]
theorem rolesOk_router : RolesOk ROUTER_ROLES := by
  refine ⟨by decide, ?_⟩
  simp [ROUTER_ROLES, roleNames]

variable (env env2 : AuthEnv) (roles aroles : Option PyDict) (realm : String) (sid : PyInt) (r : Response)
  (hr : RolesOk (roles.getD CLIENT_ROLES)) (har : RolesOk (aroles.getD ROUTER_ROLES)) (hsid : IdOk sid)

include hr har hsid in
/-- Without a server authenticator every client is let in as "anonymous". -/
theorem C63_no_authenticator (au : ClientAuthenticator)
    (hc1 : Carries c (.hello ((Joiner.init realm).hello au roles)))
    (hc2 : Carries c (.welcome ⟨sid, aroles.getD ROUTER_ROLES, some "anonymous", some "anonymous", some "anonymous", []⟩)) :
    HandshakeAgrees c cr au env env2 roles (Joiner.init realm) (Acceptor.init false aroles sid)
      ⟨sid, realm, some "anonymous", some "anonymous"⟩ :=
  agree_two c cr au env env2 roles realm _ ⟨sid, aroles.getD ROUTER_ROLES, some "anonymous", some "anonymous", some "anonymous", []⟩ _
    hr ⟨hsid, har⟩ (by simp [Acceptor.receiveMessage, Acceptor.receiveHello, Acceptor.init, Acceptor.welcome]) (by simp [Acceptor.receiveMessage, Acceptor.receiveHello, Acceptor.init, Acceptor.welcome]; rfl) rfl hc1 hc2

include hr har hsid in
/-- Anonymous: the authenticator approves realm, authid and extra data; both sides get its authid and authrole. -/
theorem C63_anonymous (authid : String) (extra : Option PyDict)
    (ha : env.authenticate (.anonymous realm (some authid) (some (extra.getD []))) = .ok r)
    (hc1 : Carries c (.hello ((Joiner.init realm).hello (anonymousAuthenticator authid extra) roles)))
    (hc2 : Carries c (.welcome ⟨sid, aroles.getD ROUTER_ROLES, r.authid, r.authrole, some "anonymous", []⟩)) :
    HandshakeAgrees c cr (anonymousAuthenticator authid extra) env env2 roles (Joiner.init realm) (Acceptor.init true aroles sid)
      ⟨sid, realm, r.authid, r.authrole⟩ :=
  agree_two c cr _ env env2 roles realm _ ⟨sid, aroles.getD ROUTER_ROLES, r.authid, r.authrole, some "anonymous", []⟩ _
    hr ⟨hsid, har⟩ (by
      simp [Acceptor.receiveMessage, Acceptor.receiveHello, Acceptor.init, Acceptor.chooseMethod, Joiner.hello, Joiner.init,
        anonymousAuthenticator, ha, Acceptor.welcome])
    (by
      simp [Acceptor.receiveMessage, Acceptor.receiveHello, Acceptor.init, Acceptor.chooseMethod, Joiner.hello, Joiner.init,
        anonymousAuthenticator, ha, Acceptor.welcome]) rfl hc1 hc2

include hr har hsid in
/-- Ticket: the authenticator approves the presented ticket. -/
theorem C63_ticket (authid ticket : String) (extra : Option PyDict)
    (ha : env2.authenticate (.ticket realm (some authid) (some (extra.getD [])) ticket) = .ok r)
    (hc1 : Carries c (.hello ((Joiner.init realm).hello (ticketAuthenticator authid ticket extra) roles)))
    (hc2 : Carries c (.challenge ⟨"ticket", []⟩)) (hc3 : Carries c (.authenticate ⟨ticket, []⟩))
    (hc4 : Carries c (.welcome ⟨sid, aroles.getD ROUTER_ROLES, r.authid, r.authrole, none, []⟩)) :
    HandshakeAgrees c cr (ticketAuthenticator authid ticket extra) env env2 roles (Joiner.init realm) (Acceptor.init true aroles sid)
      ⟨sid, realm, r.authid, r.authrole⟩ := by
  refine agree_four c cr _ env env2 roles realm _
    { Acceptor.init true aroles sid with authMethod := .str "ticket", hello := some ((Joiner.init realm).hello (ticketAuthenticator authid ticket extra) roles), state := .challengeSent }
    ⟨"ticket", []⟩ ⟨ticket, []⟩ ⟨sid, aroles.getD ROUTER_ROLES, r.authid, r.authrole, none, []⟩ _
    hr ⟨hsid, har⟩ ?_ rfl ?_ ?_ rfl hc1 hc2 hc3 hc4
  · simp [Acceptor.receiveMessage, Acceptor.receiveHello, Acceptor.init, Acceptor.chooseMethod, Joiner.hello, Joiner.init,
        ticketAuthenticator]
  · simp [Acceptor.receiveMessage, Acceptor.receiveAuthenticate, Acceptor.init, Joiner.hello, Joiner.init,
        ticketAuthenticator, ha, Acceptor.welcome]
  · simp [Acceptor.receiveMessage, Acceptor.receiveAuthenticate, Acceptor.init, Joiner.hello, Joiner.init,
        ticketAuthenticator, ha, Acceptor.welcome]

include hr har hsid in
/-- WAMP-CRA: the authenticator approves the request and returns the secret the client has. -/
theorem C63_wampcra (authid secret : String) (extra : Option PyDict)
    (ha : env.authenticate (.wampcra realm (some authid) (some (extra.getD []))) = .ok r) (hs : r.secret? = some secret)
    (ch : String) (hch : ch = generateWampcraChallenge env.nonce env.now sid r.authid r.authrole "dynamic")
    (hc1 : Carries c (.hello ((Joiner.init realm).hello (wampcraAuthenticator cr authid secret extra) roles)))
    (hc2 : Carries c (.challenge ⟨"wampcra", [(.str "challenge", .str ch)]⟩))
    (hc3 : Carries c (.authenticate ⟨b64encode (cr.hmac (utf8 secret) (utf8 ch)), []⟩))
    (hc4 : Carries c (.welcome ⟨sid, aroles.getD ROUTER_ROLES, r.authid, r.authrole, none, []⟩)) :
    HandshakeAgrees c cr (wampcraAuthenticator cr authid secret extra) env env2 roles (Joiner.init realm)
      (Acceptor.init true aroles sid) ⟨sid, realm, r.authid, r.authrole⟩ := by
  subst hch
  refine agree_four c cr _ env env2 roles realm _
    { Acceptor.init true aroles sid with authMethod := .str "wampcra", hello := some ((Joiner.init realm).hello (wampcraAuthenticator cr authid secret extra) roles), response := some r, secret := some secret, state := .challengeSent, challenge := some (generateWampcraChallenge env.nonce env.now sid r.authid r.authrole "dynamic") }
    ⟨"wampcra", [(.str "challenge", .str (generateWampcraChallenge env.nonce env.now sid r.authid r.authrole "dynamic"))]⟩
    ⟨b64encode (cr.hmac (utf8 secret) (utf8 (generateWampcraChallenge env.nonce env.now sid r.authid r.authrole "dynamic"))), []⟩
    ⟨sid, aroles.getD ROUTER_ROLES, r.authid, r.authrole, none, []⟩ _
    hr ⟨hsid, har⟩ ?_ ?_ ?_ ?_ rfl hc1 hc2 hc3 hc4
  · simp [Acceptor.receiveMessage, Acceptor.receiveHello, Acceptor.init, Acceptor.chooseMethod, Joiner.hello, Joiner.init,
        wampcraAuthenticator, ha, hs]
  · generalize generateWampcraChallenge env.nonce env.now sid r.authid r.authrole "dynamic" = ch
    exact C65_client_plain cr secret ch [(.str "challenge", .str ch)] (.inl rfl) rfl
  all_goals
    have hv := C64_sign_verifies cr (generateWampcraChallenge env.nonce env.now sid r.authid r.authrole "dynamic") (utf8 secret)
    unfold signWampcraChallenge at hv
    simp [Acceptor.receiveMessage, Acceptor.receiveAuthenticate, Acceptor.init, Joiner.hello, Joiner.init, hv,
      Acceptor.welcomeResponse, Acceptor.welcome]

include hr har hsid in
/-- Cryptosign: the client authenticator is built from a hex private key; the authenticator approves the announced public
key, which decodes to the key belonging to the private key. -/
theorem C63_cryptosign (law : SignatureScheme cr) (authid privateKey : String) (extra : Option PyDict) (seed : Bytes)
    (au : ClientAuthenticator) (pk : Value)
    (hau : cryptosignAuthenticator cr authid privateKey extra = .ok au) (hseed : unhexlify privateKey = .ok seed)
    (hk : PyDict.get? au.authExtra "pubkey" = some pk) (hkk : unhexlifyValue pk = .ok (cr.publicKey seed))
    (ha : env.authenticate (.cryptosign realm (some authid) (some au.authExtra) pk) = .ok r)
    (hc1 : Carries c (.hello ((Joiner.init realm).hello au roles)))
    (hc2 : Carries c (.challenge ⟨"cryptosign", [(.str "challenge", .str (hexlify env.raw))]⟩))
    (hc3 : Carries c (.authenticate ⟨hexlify (cr.sign seed env.raw) ++ hexlify env.raw, []⟩))
    (hc4 : Carries c (.welcome ⟨sid, aroles.getD ROUTER_ROLES, r.authid, r.authrole, none, []⟩)) :
    HandshakeAgrees c cr au env env2 roles (Joiner.init realm) (Acceptor.init true aroles sid)
      ⟨sid, realm, r.authid, r.authrole⟩ := by
  have hau' : au = ⟨"cryptosign", some authid, au.authExtra, cryptosignAuthenticate cr seed⟩ := by
    unfold cryptosignAuthenticator at hau
    rw [hseed] at hau
    simp only [bind, Except.bind, pure, Except.pure] at hau
    split at hau
    · cases hau
    · injection hau with hau; rw [← hau]
  generalize hx : au.authExtra = x at *
  subst hau'
  have hne : pk ≠ .none := by rintro rfl; cases hkk
  refine agree_four c cr _ env env2 roles realm _
    { Acceptor.init true aroles sid with authMethod := .str "cryptosign", hello := some ((Joiner.init realm).hello ⟨"cryptosign", some authid, x, cryptosignAuthenticate cr seed⟩ roles), response := some r, publicKey := pk, state := .challengeSent }
    ⟨"cryptosign", [(.str "challenge", .str (hexlify env.raw))]⟩
    ⟨hexlify (cr.sign seed env.raw) ++ hexlify env.raw, []⟩
    ⟨sid, aroles.getD ROUTER_ROLES, r.authid, r.authrole, none, []⟩ _
    hr ⟨hsid, har⟩ ?_ ?_ ?_ ?_ rfl hc1 hc2 hc3 hc4
  · simp [Acceptor.receiveMessage, Acceptor.receiveHello, Acceptor.init, Acceptor.chooseMethod, Joiner.hello, Joiner.init,
      PyDict.getD, hk, hne, ha, generateCryptosignChallenge]
  · simp [cryptosignAuthenticate, PyDict.getD, PyDict.get?, signCryptosignChallenge, unhexlifyValue, unhexlify_hexlify, bind,
      Except.bind, pure, Except.pure]
  all_goals
    obtain ⟨sig, e1, e2, hv⟩ := C66_sign_verifies cr law seed env.raw (hexlify env.raw) (unhexlify_hexlify _)
    have : sig ++ hexlify env.raw = hexlify (cr.sign seed env.raw) ++ hexlify env.raw := by
      simp [signCryptosignChallenge, unhexlifyValue, unhexlify_hexlify, bind, Except.bind, pure, Except.pure] at e1
      rw [e1]
    rw [this] at hv
    simp [Acceptor.receiveMessage, Acceptor.receiveAuthenticate, Acceptor.init, Joiner.hello, Joiner.init, hkk, hv,
      Acceptor.welcomeResponse, Acceptor.welcome]

/-- `SessionDetails.__eq__` says "equal" exactly when session id, realm, authid and authrole all agree (ids are compared as
numbers, so `True` is 1). -/
theorem C63_details_compare_equal (a b : SessionDetails) : a.eq b = true ↔
    a.sessionId.val = b.sessionId.val ∧ a.realm = b.realm ∧ a.authid = b.authid ∧ a.authrole = b.authrole := by
  simp [SessionDetails.eq, and_assoc]

/-! ## The hypotheses can be met -/

theorem exampleCodec_carries (m : Message) : Carries exampleCodec m := ⟨_, rfl, rfl⟩

example : HandshakeAgrees exampleCodec toyCrypto
    (wampcraAuthenticator toyCrypto "bob" "pw" none) ⟨fun _ => .ok (.cra (some "bob") (some "user") "pw"), [1], "now", [2, 3]⟩
    ⟨fun _ => .error [], [], "", []⟩ none (Joiner.init "realm1") (Acceptor.init true none (.int 7))
    ⟨.int 7, "realm1", some "bob", some "user"⟩ :=
  C63_wampcra exampleCodec toyCrypto _ _ none none "realm1" (.int 7) (.cra (some "bob") (some "user") "pw") rolesOk_client
    rolesOk_router (by decide) "bob" "pw" none rfl rfl _ rfl (exampleCodec_carries _) (exampleCodec_carries _)
    (exampleCodec_carries _) (exampleCodec_carries _)

example : ∃ au pk, cryptosignAuthenticator toyCrypto "bob" (hexlify (List.replicate 32 7)) none = .ok au ∧
    unhexlify (hexlify (List.replicate 32 7)) = .ok (List.replicate 32 7) ∧
    PyDict.get? au.authExtra "pubkey" = some pk ∧ unhexlifyValue pk = .ok (toyCrypto.publicKey (List.replicate 32 7)) := by
  obtain ⟨a, _, h1, h2, _, _, h3⟩ := C66_keypair toyCrypto toyCrypto_law (List.replicate 32 7) (by decide) "bob" "00" [0] (by decide)
  exact ⟨a, _, h1, unhexlify_hexlify _, h2, h3⟩

/-- A server that lets anybody in as a guest, and Bob if he has the ticket "pw" or the key he announced. -/
def guests : AuthEnv where
  authenticate
    | .anonymous _ _ _ => .ok (.plain (some "guest") (some "visitor"))
    | .ticket _ (some "bob") _ "pw" => .ok (.plain (some "bob") (some "user"))
    | .cryptosign _ (some "bob") _ pk =>
      if pk = .str (hexlify (toyCrypto.publicKey (List.replicate 32 7))) then .ok (.plain (some "bob") (some "user")) else .error [.str "unknown key"]
    | _ => .error [.str "who are you?"]
  nonce := [1]
  now := "now"
  raw := [2, 3]

example : HandshakeAgrees exampleCodec toyCrypto (ticketAuthenticator "bob" "pw" none) guests guests none (Joiner.init "realm1")
    (Acceptor.init false none (.int 7)) ⟨.int 7, "realm1", some "anonymous", some "anonymous"⟩ :=
  C63_no_authenticator exampleCodec toyCrypto _ _ none none "realm1" (.int 7) rolesOk_client rolesOk_router (by decide) _ (exampleCodec_carries _) (exampleCodec_carries _)

example : HandshakeAgrees exampleCodec toyCrypto (anonymousAuthenticator "x" none) guests guests none (Joiner.init "realm1")
    (Acceptor.init true none (.int 7)) ⟨.int 7, "realm1", some "guest", some "visitor"⟩ :=
  C63_anonymous exampleCodec toyCrypto _ _ none none "realm1" (.int 7) (.plain (some "guest") (some "visitor")) rolesOk_client rolesOk_router
    (by decide) "x" none rfl (exampleCodec_carries _) (exampleCodec_carries _)

example : HandshakeAgrees exampleCodec toyCrypto (ticketAuthenticator "bob" "pw" none) guests guests none (Joiner.init "realm1")
    (Acceptor.init true none (.int 7)) ⟨.int 7, "realm1", some "bob", some "user"⟩ :=
  C63_ticket exampleCodec toyCrypto _ _ none none "realm1" (.int 7) (.plain (some "bob") (some "user")) rolesOk_client rolesOk_router
    (by decide) "bob" "pw" none rfl (exampleCodec_carries _) (exampleCodec_carries _) (exampleCodec_carries _) (exampleCodec_carries _)

/-- Bob's cryptosign client. -/
def bobsKey : ClientAuthenticator := ⟨"cryptosign", some "bob", [(.str "pubkey", .str (hexlify (toyCrypto.publicKey (List.replicate 32 7))))],
  cryptosignAuthenticate toyCrypto (List.replicate 32 7)⟩

theorem bobsKey_eq : cryptosignAuthenticator toyCrypto "bob" (hexlify (List.replicate 32 7)) none = .ok bobsKey := by
  simp [cryptosignAuthenticator, unhexlify_hexlify, bind, Except.bind, pure, Except.pure, PyDict.get?, bobsKey, PyDict.set]

example : HandshakeAgrees exampleCodec toyCrypto bobsKey guests guests none (Joiner.init "realm1")
    (Acceptor.init true none (.int 7)) ⟨.int 7, "realm1", some "bob", some "user"⟩ :=
  C63_cryptosign exampleCodec toyCrypto _ _ none none "realm1" (.int 7) (.plain (some "bob") (some "user")) rolesOk_client rolesOk_router
    (by decide) toyCrypto_law "bob" _ none _ bobsKey _ bobsKey_eq (unhexlify_hexlify _) rfl (unhexlify_hexlify _) (by simp [guests])
    (exampleCodec_carries _) (exampleCodec_carries _) (exampleCodec_carries _) (exampleCodec_carries _)

end Wamp
