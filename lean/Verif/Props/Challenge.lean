import Verif.Props.Acceptor
import Verif.Proofs.Json

/-!
# C94 — a WAMP-CRA answer is good for one challenge

The challenge is the JSON text of a dict with the nonce, the session id, the time and the identity; `json.dumps` and
`json.loads` are those of `Model/Json.lean`.  The MAC is a parameter, so the last statement says what would have to collide.
-/

namespace Wamp
open Spec

variable (nonce : Bytes) (now : String) (sid : PyInt) (authid authrole : Option String) (provider : String)

/-- The value the challenge is the text of -/
def craData : Value :=
  .dict [(.str "nonce", .str (hexlify nonce)), (.str "authprovider", .str provider),
    (.str "authid", (authid.map Value.str).getD .none), (.str "authrole", (authrole.map Value.str).getD .none),
    (.str "authmethod", .str "wampcra"), (.str "session", sid.toValue), (.str "timestamp", .str now)]

theorem craData_eq : generateWampcraChallenge nonce now sid authid authrole provider =
    String.ofList (Json.text (craData nonce now sid authid authrole provider)) := by
  unfold generateWampcraChallenge craData
  cases authid <;> cases authrole <;> rfl

theorem craData_fits : Fits jsonLimits (craData nonce now sid authid authrole provider) := by
  have hs : ∀ o : Option String, Fits jsonLimits ((o.map Value.str).getD .none) := by
    intro o; cases o <;> simp [Fits, jsonLimits]
  have hi : Fits jsonLimits sid.toValue := by cases sid <;> simp [PyInt.toValue, Fits, jsonLimits]
  refine ⟨trivial, by simp, ?_⟩
  refine ⟨⟨_, rfl, trivial⟩, by simp [Fits, jsonLimits], ⟨_, rfl, trivial⟩, by simp [Fits, jsonLimits], ⟨_, rfl, trivial⟩, hs _,
    ⟨_, rfl, trivial⟩, hs _, ⟨_, rfl, trivial⟩, by simp [Fits, jsonLimits], ⟨_, rfl, trivial⟩, hi, ⟨_, rfl, trivial⟩,
    by simp [Fits, jsonLimits], trivial⟩

/-- A client that reads the challenge with `json.loads` finds the nonce in hex, the provider, the identity, the method, the
session id and the time. -/
theorem C94_challenge_contents : Json.loads (generateWampcraChallenge nonce now sid authid authrole provider) =
    .ok (.dict [(.str "nonce", .str (hexlify nonce)), (.str "authprovider", .str provider),
      (.str "authid", (authid.map Value.str).getD .none), (.str "authrole", (authrole.map Value.str).getD .none),
      (.str "authmethod", .str "wampcra"), (.str "session", sid.toValue), (.str "timestamp", .str now)]) := by
  rw [craData_eq]
  exact Json.loads_text _ (craData_fits ..)

/-- Two challenges are the same text only if nonce, time, session id, identity and provider are the same. -/
theorem C94_challenges_differ (nonce' : Bytes) (now' : String) (sid' : PyInt) (authid' authrole' : Option String)
    (provider' : String)
    (h : generateWampcraChallenge nonce now sid authid authrole provider =
      generateWampcraChallenge nonce' now' sid' authid' authrole' provider') :
    nonce = nonce' ∧ now = now' ∧ sid = sid' ∧ authid = authid' ∧ authrole = authrole' ∧ provider = provider' := by
  have h1 := C94_challenge_contents nonce now sid authid authrole provider
  rw [h, C94_challenge_contents nonce' now' sid' authid' authrole' provider'] at h1
  injection h1 with h1; injection h1 with h1
  simp only [List.cons.injEq, Prod.mk.injEq, Value.str.injEq, true_and, and_true] at h1
  obtain ⟨e1, e2, e3, e4, e5, e6⟩ := h1
  refine ⟨?_, e6.symm, ?_, ?_, ?_, e2.symm⟩
  · have := unhexlify_hexlify nonce'
    rw [e1, unhexlify_hexlify] at this
    injection this
  · cases sid <;> cases sid' <;> simp_all [PyInt.toValue]
  · cases authid <;> cases authid' <;> simp_all
  · cases authrole <;> cases authrole' <;> simp_all

end Wamp

namespace Wamp.Acceptor
open Spec.Hs
variable (cr : Crypto) (au : Bool) (roles : Option PyDict) (sid : PyInt) (ins : List In)

/-- What an acceptor sends as challenge: for "wampcra" the text made of the nonce and the time drawn in this handshake, its
session id and the identity the authenticator returned; for "cryptosign" the 32 random bytes drawn, in hex; for "ticket"
nothing. -/
theorem C94_challenge_sent (env : AuthEnv) (hello : Hello) (ch : Challenge)
    (h : Challenged cr (init au roles sid) ins env hello ch) :
    (∃ r, env.authenticate (.wampcra hello.realm hello.authid hello.authextra) = .ok r ∧ ch = ⟨"wampcra",
      [(.str "challenge", .str (generateWampcraChallenge env.nonce env.now sid r.authid r.authrole "dynamic"))]⟩) ∨
    ch = ⟨"cryptosign", [(.str "challenge", .str (hexlify env.raw))]⟩ ∨ ch = ⟨"ticket", []⟩ := by
  obtain ⟨pre, post, rfl, hr⟩ := h
  have hi := inv_after cr au roles sid pre
  have hsid := hi.sid
  unfold reply at hr
  generalize after cr (init au roles sid) pre = s at *
  unfold receiveMessage at hr
  by_cases hw : s.state = .welcomeSent
  · rw [if_pos hw] at hr; cases hr
  rw [if_neg hw] at hr
  simp only [] at hr
  by_cases hn : s.state = .none
  · by_cases ha : s.hasAuthenticator = true
    · rcases receiveHello_cases cr env s hello hn ha with ⟨r, h1, h2, h3⟩ | ⟨r, pk, h1, h2, h3, h4, h5⟩ | ⟨r, sec, h1, h2, h3, h4⟩ | ⟨h1, h2⟩ | ⟨h1, ⟨_, h2⟩ | ⟨_, h2⟩⟩
      · rw [h3] at hr; cases hr
      · rw [h5] at hr; injection hr with hr; injection hr with hr; injection hr with hr; exact .inr (.inl hr.symm)
      · rw [h4] at hr; injection hr with hr; injection hr with hr; injection hr with hr
        rw [hsid] at hr
        exact .inl ⟨r, h2, hr.symm⟩
      · rw [h2] at hr; injection hr with hr; injection hr with hr; injection hr with hr; exact .inr (.inr hr.symm)
      · rw [h2] at hr; cases hr
      · rw [h2] at hr; cases hr
    · unfold receiveHello at hr
      rw [if_neg (by simp [hn]), if_pos (by simpa using ha)] at hr
      cases hr
  · unfold receiveHello at hr
    rw [if_pos hn] at hr; cases hr

/-- If one AUTHENTICATE is answered with WELCOME in two handshakes that drew different nonces, or at different times, or have
different session ids, then the MACs of two different texts are equal: an answer overheard in one handshake is of no use in
another. -/
theorem C94_no_replay (au' : Bool) (roles' : Option PyDict) (sid' : PyInt) (ins' : List In) (env env' now now' : AuthEnv)
    (hello hello' : Hello) (ch ch' : Challenge) (a : Authenticate) (w w' : Welcome)
    (hc : Challenged cr (init au roles sid) ins env hello ch) (hm : ch.authmethod = "wampcra")
    (hc' : Challenged cr (init au' roles' sid') ins' env' hello' ch') (hm' : ch'.authmethod = "wampcra")
    (h : reply cr (init au roles sid) ins (now, .authenticate a) = .ok (some (.welcome w)))
    (h' : reply cr (init au' roles' sid') ins' (now', .authenticate a) = .ok (some (.welcome w')))
    (hd : (env.nonce, env.now, sid) ≠ (env'.nonce, env'.now, sid')) :
    ∃ c c' key key', ch.extra = [(.str "challenge", .str c)] ∧ ch'.extra = [(.str "challenge", .str c')] ∧ c ≠ c' ∧
      cr.hmac key (utf8 c) = cr.hmac key' (utf8 c') := by
  obtain ⟨a1, r, secret, c, e1, -, -, e4, e5, -⟩ := C54_wampcra_welcome cr au roles sid ins _ w env hello ch hc hm h
  obtain ⟨a2, r', secret', c', e1', -, -, e4', e5', -⟩ := C54_wampcra_welcome cr au' roles' sid' ins' _ w' env' hello' ch' hc' hm' h'
  cases e1; cases e1'
  refine ⟨c, c', utf8 secret, utf8 secret', e4, e4', ?_, ?_⟩
  · rintro rfl
    rcases C94_challenge_sent cr au roles sid ins env hello ch hc with ⟨r1, -, h1⟩ | h1 | h1
    · rcases C94_challenge_sent cr au' roles' sid' ins' env' hello' ch' hc' with ⟨r2, -, h2⟩ | h2 | h2
      · rw [h1] at e4; rw [h2] at e4'
        simp only [List.cons.injEq, Prod.mk.injEq, Value.str.injEq, true_and, and_true] at e4 e4'
        have := C94_challenges_differ _ _ _ _ _ _ _ _ _ _ _ _ (e4.trans e4'.symm)
        exact hd (by rw [this.1, this.2.1, this.2.2.1])
      · rw [h2] at hm'; exact absurd hm' (by simp)
      · rw [h2] at hm'; exact absurd hm' (by simp)
    · rw [h1] at hm; exact absurd hm (by simp)
    · rw [h1] at hm; exact absurd hm (by simp)
  · rw [e5] at e5'; injection e5'

/-! ## The hypotheses can be met -/

example : Challenged toyCrypto (init true none (.int 7)) craStart (approves (.cra (some "bob") (some "user") "pw"))
    (helloFor "wampcra" []) ⟨"wampcra", [(.str "challenge", .str craText)]⟩ := ⟨[], [], rfl, by rw [← craText_eq]; rfl⟩

/-- The MAC of the toy primitives ignores nothing, so there the two challenges of two sessions have different answers. -/
example : generateWampcraChallenge [1] "now" (.int 7) (some "bob") (some "user") "dynamic" ≠
    generateWampcraChallenge [1] "now" (.int 8) (some "bob") (some "user") "dynamic" :=
  fun h => absurd (C94_challenges_differ _ _ _ _ _ _ _ _ _ _ _ _ h).2.2.1 (by decide)

/-- Primitives whose MAC is constant -/
def deafCrypto : Crypto := { toyCrypto with hmac := fun _ _ => [1] }

/-- With them one AUTHENTICATE is accepted in every session. -/
theorem deaf_accepts (sid : PyInt) :
    reply deafCrypto (init true none sid) craStart (rejects, .authenticate ⟨"AQ==", []⟩) =
      .ok (some (.welcome ⟨sid, ROUTER_ROLES, some "bob", some "user", none, []⟩)) := by
  have hv : ∀ c key, verifyWampcraSignature deafCrypto "AQ==" c key = .ok true :=
    fun c key => (C64_verify_iff ..).2 (by show _ = Except.ok [1]; decide)
  simp [reply, after, craStart, receiveMessage, receiveHello, receiveAuthenticate, init, approves, helloFor, chooseMethod,
    Response.secret?, Response.authid, Response.authrole, hv, welcomeResponse, welcome]

example : ∃ ch ch' w w', Challenged deafCrypto (init true none (.int 7)) craStart (approves (.cra (some "bob") (some "user") "pw"))
      (helloFor "wampcra" []) ch ∧ ch.authmethod = "wampcra" ∧
    Challenged deafCrypto (init true none (.int 8)) craStart (approves (.cra (some "bob") (some "user") "pw"))
      (helloFor "wampcra" []) ch' ∧ ch'.authmethod = "wampcra" ∧
    reply deafCrypto (init true none (.int 7)) craStart (rejects, .authenticate ⟨"AQ==", []⟩) = .ok (some (.welcome w)) ∧
    reply deafCrypto (init true none (.int 8)) craStart (rejects, .authenticate ⟨"AQ==", []⟩) = .ok (some (.welcome w')) :=
  ⟨_, _, _, _, ⟨[], [], rfl, rfl⟩, rfl, ⟨[], [], rfl, rfl⟩, rfl, deaf_accepts _, deaf_accepts _⟩

end Wamp.Acceptor
