import Verif.Spec.Secrecy
import Verif.Model.Hmac
import Verif.Props.Answers

/-!
# C111, C112: what a handshake tells of the secret
-/

namespace Wamp.Spec
open Secrecy

/-! ## The server -/

/-- The same server in two worlds, before it lets anyone in. -/
structure TwinServers (a a' : Acceptor) : Prop where
  rest : a' = { a with response := a'.response, secret := a'.secret }
  response : a'.response.map blind = a.response.map blind
  secret : a'.secret.isSome = a.secret.isSome
  ready : a.state = .challengeSent → a.authMethod = .str "wampcra" → a.hello ≠ none ∧ a.response ≠ none

theorem blind_authid {r r' : Response} (h : blind r' = blind r) : r'.authid = r.authid ∧ r'.authrole = r.authrole ∧
    r'.secret?.isSome = r.secret?.isSome := by
  cases r <;> cases r' <;> simp [blind] at h <;> simp [Response.authid, Response.authrole, Response.secret?, h]

theorem twin_hello (cr : Crypto) {a a' : Acceptor} {e e' : AuthEnv} (h : TwinServers a a') (he : Twin e e') (m : Hello) :
    TwinServers (a.receiveHello cr e m).1 (a'.receiveHello cr e' m).1 ∧
      (a'.receiveHello cr e' m).2 = (a.receiveHello cr e m).2 := by
  obtain ⟨h1, h2, h3, h4⟩ := h
  generalize a'.response = r' at h1 h2
  generalize a'.secret = s' at h1 h3
  subst h1
  have hauth : ∀ q, (∃ x, e.authenticate q = .error x ∧ e'.authenticate q = .error x) ∨
      ∃ r r', e.authenticate q = .ok r ∧ e'.authenticate q = .ok r' ∧ blind r' = blind r := by
    intro q
    have := he.answers q
    cases h1 : e.authenticate q <;> cases h2 : e'.authenticate q <;> simp_all [Except.map]
  simp only [Acceptor.receiveHello]
  split
  · exact ⟨⟨rfl, h2, h3, h4⟩, rfl⟩
  split
  · exact ⟨⟨rfl, h2, h3, by intro q1 q2; simp_all [Acceptor.welcome]⟩, rfl⟩
  split
  · rcases hauth (.anonymous m.realm m.authid m.authextra) with ⟨x, k1, k2⟩ | ⟨r, r1, k1, k2, k3⟩
    · simp only [k1, k2]
      exact ⟨⟨rfl, h2, h3, by intro q1 q2; simp_all⟩, trivial⟩
    · obtain ⟨e1, e2, -⟩ := blind_authid k3
      simp only [k1, k2, e1, e2]
      exact ⟨⟨rfl, h2, h3, by intro q1 q2; simp_all [Acceptor.welcome]⟩, rfl⟩
  split
  · cases m.authextra with
    | none => exact ⟨⟨rfl, h2, h3, by intro q1 q2; simp_all⟩, rfl⟩
    | some extra =>
      simp only
      split
      · exact ⟨⟨rfl, h2, h3, by intro q1 q2; simp_all⟩, rfl⟩
      · rcases hauth (.cryptosign m.realm m.authid (some extra) (PyDict.getD extra "pubkey")) with ⟨x, k1, k2⟩ | ⟨r, r1, k1, k2, k3⟩
        · simp only [k1, k2]
          exact ⟨⟨rfl, h2, h3, by intro q1 q2; simp_all⟩, trivial⟩
        · simp only [k1, k2, he.raw]
          exact ⟨⟨rfl, by simp [k3], h3, by intro q1 q2; simp_all⟩, trivial⟩
  split
  · rcases hauth (.wampcra m.realm m.authid m.authextra) with ⟨x, k1, k2⟩ | ⟨r, r1, k1, k2, k3⟩
    · simp only [k1, k2]
      exact ⟨⟨rfl, h2, h3, by intro q1 q2; simp_all⟩, trivial⟩
    · obtain ⟨e1, e2, e3⟩ := blind_authid k3
      simp only [k1, k2, e1, e2, he.nonce, he.now]
      cases hs : r.secret? <;> cases hs' : r1.secret? <;> simp [hs, hs'] at e3
      · exact ⟨⟨rfl, h2, h3, by intro q1 q2; simp_all⟩, rfl⟩
      · exact ⟨⟨rfl, by simp [k3], rfl, by intro q1 q2; simp_all⟩, rfl⟩
  split
  · exact ⟨⟨rfl, h2, h3, by intro q1 q2; simp_all⟩, rfl⟩
  · exact ⟨⟨rfl, h2, h3, by intro q1 q2; simp_all⟩, rfl⟩

theorem twin_welcomeResponse {a a' : Acceptor} (h : TwinServers a a') :
    TwinServers a.welcomeResponse.1 a'.welcomeResponse.1 ∧ a'.welcomeResponse.2 = a.welcomeResponse.2 ∧
      (a'.hello ≠ none → a.response ≠ none → LetsIn a'.welcomeResponse.2) := by
  obtain ⟨h1, h2, h3, h4⟩ := h
  generalize a'.response = r' at h1 h2
  generalize a'.secret = s' at h1 h3
  subst h1
  simp only [Acceptor.welcomeResponse]
  cases hr : a.response <;> cases r' <;> simp [hr] at h2
  · exact ⟨⟨rfl, by simp, h3, by intro q1 q2; simp at q1⟩, rfl, fun _ h => absurd rfl h⟩
  · rename_i r r'
    obtain ⟨e1, e2, -⟩ := blind_authid h2
    cases hh : a.hello with
    | none => exact ⟨⟨rfl, by simp [h2], h3, by intro q1 q2; simp at q1⟩, rfl, fun h => absurd rfl h⟩
    | some x =>
      simp only [Acceptor.welcome, e1, e2]
      exact ⟨⟨by simp [hh], by simp [hr, h2], h3, by intro q1 q2; simp at q1⟩, trivial, fun _ _ => ⟨_, rfl⟩⟩

theorem cra_step (cr : Crypto) (a : Acceptor) (e : AuthEnv) (m : Authenticate) (hst : a.state = .challengeSent)
    (hm : a.authMethod = .str "wampcra") (k c : String) (hk : a.secret = some k) (hc : a.challenge = some c) :
    a.receiveAuthenticate cr e m = match verifyWampcraSignature cr m.signature c (utf8 k) with
      | .error x => (a, .error x)
      | .ok false => ({ a with state := .aborted }, .ok (some (Acceptor.authFailed none)))
      | .ok true => a.welcomeResponse := by
  simp only [Acceptor.receiveAuthenticate, hst, hm, hk, hc, ne_eq, not_true_eq_false, if_false]
  rw [if_neg (by decide), if_pos trivial]
  cases verifyWampcraSignature cr m.signature c (utf8 k) with
  | error x => rfl
  | ok b => cases b <;> rfl

theorem cra_step_none (cr : Crypto) (a : Acceptor) (e : AuthEnv) (m : Authenticate) (hst : a.state = .challengeSent)
    (hm : a.authMethod = .str "wampcra") (h : a.secret = none ∨ a.challenge = none) :
    a.receiveAuthenticate cr e m = (a, .error .attributeError) := by
  rcases h with h | h
  · simp [Acceptor.receiveAuthenticate, hst, hm, h]
  · cases hk : a.secret <;> simp [Acceptor.receiveAuthenticate, hst, hm, h, hk]

theorem twin_cra (cr : Crypto) {a a' : Acceptor} {e e' : AuthEnv} (h : TwinServers a a') (m : Authenticate)
    (hst : a.state = .challengeSent) (hm : a.authMethod = .str "wampcra") :
    (TwinServers (a.receiveAuthenticate cr e m).1 (a'.receiveAuthenticate cr e' m).1 ∧
      (a'.receiveAuthenticate cr e' m).2 = (a.receiveAuthenticate cr e m).2) ∨
    LetsIn (a.receiveAuthenticate cr e m).2 ∨ LetsIn (a'.receiveAuthenticate cr e' m).2 := by
  have hst' : a'.state = .challengeSent := by rw [h.rest]; exact hst
  have hm' : a'.authMethod = .str "wampcra" := by rw [h.rest]; exact hm
  have hhello : a'.hello = a.hello := by rw [h.rest]
  have hchal : a'.challenge = a.challenge := by rw [h.rest]
  have habort : TwinServers { a with state := .aborted } { a' with state := .aborted } :=
    ⟨by rw [h.rest], h.response, h.secret, by intro q; simp at q⟩
  obtain ⟨w1, w2, w3⟩ := twin_welcomeResponse h
  have w3 := w3 (by rw [hhello]; exact (h.ready hst hm).1) (h.ready hst hm).2
  have h3 := h.secret
  cases hs : a.secret with
  | none =>
    rw [hs] at h3
    have hs' : a'.secret = none := by cases hx : a'.secret <;> simp [hx] at h3 ⊢
    rw [cra_step_none cr a e m hst hm (.inl hs), cra_step_none cr a' e' m hst' hm' (.inl hs')]
    exact .inl ⟨h, rfl⟩
  | some k =>
    rw [hs] at h3
    obtain ⟨k', hs'⟩ : ∃ k', a'.secret = some k' := by cases hx : a'.secret <;> simp [hx] at h3 ⊢
    cases hc : a.challenge with
    | none =>
      rw [cra_step_none cr a e m hst hm (.inr hc), cra_step_none cr a' e' m hst' hm' (.inr (hchal.trans hc))]
      exact .inl ⟨h, rfl⟩
    | some c =>
      rw [cra_step cr a e m hst hm k c hs hc, cra_step cr a' e' m hst' hm' k' c hs' (hchal.trans hc)]
      simp only [verifyWampcraSignature, signWampcraChallenge, b64decode_b64encode]
      cases b64decode m.signature with
      | error x =>
        left
        cases x <;> first | exact ⟨h, rfl⟩ | exact ⟨habort, rfl⟩
      | ok sig =>
        simp only
        by_cases h1 : sig = cr.hmac (utf8 k) (utf8 c)
        · simp only [h1, decide_true]; exact .inr (.inl (by rw [← w2]; exact w3))
        · by_cases h2 : sig = cr.hmac (utf8 k') (utf8 c)
          · simp only [h2, decide_true]; exact .inr (.inr w3)
          · simp only [h1, h2, decide_false]; exact .inl ⟨habort, trivial⟩

theorem twin_authenticate (cr : Crypto) {a a' : Acceptor} {e e' : AuthEnv} (h : TwinServers a a') (he : Twin e e') (m : Authenticate) :
    (TwinServers (a.receiveAuthenticate cr e m).1 (a'.receiveAuthenticate cr e' m).1 ∧
      (a'.receiveAuthenticate cr e' m).2 = (a.receiveAuthenticate cr e m).2) ∨
    LetsIn (a.receiveAuthenticate cr e m).2 ∨ LetsIn (a'.receiveAuthenticate cr e' m).2 := by
  obtain ⟨h1, h2, h3, h4⟩ := h
  generalize a'.response = r' at h1 h2
  generalize a'.secret = s' at h1 h3
  subst h1
  have h : TwinServers a { a with response := r', secret := s' } := ⟨rfl, h2, h3, h4⟩
  by_cases hcra : a.state = .challengeSent ∧ a.authMethod = .str "wampcra"
  · exact twin_cra cr h m hcra.1 hcra.2
  left
  simp only [Acceptor.receiveAuthenticate]
  split
  · exact ⟨h, rfl⟩
  rename_i hst
  have hst : a.state = .challengeSent := Classical.not_not.1 hst
  have habort : TwinServers { a with state := .aborted } { a with state := .aborted, response := r', secret := s' } :=
    ⟨rfl, h2, h3, by intro q; simp at q⟩
  split
  · split
    · exact ⟨h, rfl⟩
    · split
      · exact ⟨h, rfl⟩
      · exact ⟨habort, rfl⟩
      · exact ⟨(twin_welcomeResponse h).1, (twin_welcomeResponse h).2.1⟩
  split
  · rename_i hm
    exact absurd ⟨hst, hm⟩ hcra
  split
  · obtain ⟨x1, x2, x3, x4, x5, x6, x7, x8, x9, x10, x11⟩ := a
    cases x6 with
    | none => exact ⟨h, rfl⟩
    | some hello =>
      simp only
      have := he.answers (.ticket hello.realm hello.authid hello.authextra m.signature)
      cases k1 : e.authenticate (.ticket hello.realm hello.authid hello.authextra m.signature) <;>
        cases k2 : e'.authenticate (.ticket hello.realm hello.authid hello.authextra m.signature) <;>
        simp [k1, k2, Except.map] at this
      · simp only [this]; exact ⟨h, trivial⟩
      · obtain ⟨e1, e2, -⟩ := blind_authid this
        simp only [e1, e2]
        exact ⟨⟨rfl, h2, h3, by intro q; simp [Acceptor.welcome] at q⟩, rfl⟩
  · exact ⟨h, rfl⟩

theorem twin_step (cr : Crypto) {a a' : Acceptor} {e e' : AuthEnv} (h : TwinServers a a') (he : Twin e e') (m : Message) :
    (TwinServers (a.receiveMessage cr e m).1 (a'.receiveMessage cr e' m).1 ∧
      (a'.receiveMessage cr e' m).2 = (a.receiveMessage cr e m).2) ∨
    ((∃ x, m = .authenticate x) ∧ (LetsIn (a.receiveMessage cr e m).2 ∨ LetsIn (a'.receiveMessage cr e' m).2)) := by
  have hstate : a'.state = a.state := by rw [h.rest]
  simp only [Acceptor.receiveMessage, hstate]
  split
  · exact .inl ⟨h, rfl⟩
  cases m <;> try exact .inl ⟨h, rfl⟩
  case hello m => exact .inl (twin_hello cr h he m)
  case authenticate m =>
    rcases twin_authenticate cr h he m with k | k
    · exact .inl k
    · exact .inr ⟨⟨m, rfl⟩, k⟩
  case abort m => exact .inl ⟨⟨by rw [h.rest], h.response, h.secret, by intro q; simp at q⟩, rfl⟩

/-- What was received here, and there. -/
def here (past : List Both) : List Acceptor.In := past.map fun b => (b.here, b.message)
def there (past : List Both) : List Acceptor.In := past.map fun b => (b.there, b.message)

/-- Until a client is let in, a server says the same whatever the secrets are: whatever was received, if nobody has been let
in in either of two worlds that differ only in the secrets the authenticator hands out, the next message gets the same reply
or exception in both, unless it is an AUTHENTICATE that is right in one of them. -/
theorem C111_server (cr : Crypto) (au : Bool) (roles : Option PyDict) (sid : PyInt) (past : List Both)
    (hw : ∀ b ∈ past, Twin b.here b.there)
    (hn : ∀ pre b post, past = pre ++ b :: post →
      ¬ LetsIn (Acceptor.reply cr (Acceptor.init au roles sid) (here pre) (b.here, b.message)) ∧
      ¬ LetsIn (Acceptor.reply cr (Acceptor.init au roles sid) (there pre) (b.there, b.message)))
    (e e' : AuthEnv) (he : Twin e e') (m : Message) :
    Acceptor.reply cr (Acceptor.init au roles sid) (there past) (e', m) =
      Acceptor.reply cr (Acceptor.init au roles sid) (here past) (e, m) ∨
    ((∃ x, m = .authenticate x) ∧
      (LetsIn (Acceptor.reply cr (Acceptor.init au roles sid) (here past) (e, m)) ∨
       LetsIn (Acceptor.reply cr (Acceptor.init au roles sid) (there past) (e', m)))) := by
  have key : ∀ post pre, past = pre ++ post →
      TwinServers (Acceptor.after cr (Acceptor.init au roles sid) (here pre)) (Acceptor.after cr (Acceptor.init au roles sid) (there pre)) →
      TwinServers (Acceptor.after cr (Acceptor.init au roles sid) (here past)) (Acceptor.after cr (Acceptor.init au roles sid) (there past)) := by
    intro post
    induction post with
    | nil => intro pre h k; rw [List.append_nil] at h; rwa [h]
    | cons b post ih =>
      intro pre h k
      have hsn : pre ++ b :: post = (pre ++ [b]) ++ post := by simp
      refine ih (pre ++ [b]) (h.trans hsn) ?_
      obtain ⟨n1, n2⟩ := hn pre b post h
      rcases twin_step cr k (hw b (by rw [h]; simp)) b.message with q | ⟨-, q | q⟩
      · simpa [here, there, Acceptor.after, List.foldl_append] using q.1
      · exact absurd q n1
      · exact absurd q n2
  have h0 : TwinServers (Acceptor.init au roles sid) (Acceptor.init au roles sid) := ⟨rfl, rfl, rfl, by intro q; simp [Acceptor.init] at q⟩
  have := key past [] rfl h0
  rcases twin_step cr this he m with q | q
  · exact .inl q.2
  · exact .inr q

/-! Two servers whose clients have different secrets: the challenges are the same, a wrong answer is refused alike, and the
right answer for one of them is let in there only. -/
section
private def world (secret : String) : AuthEnv :=
  { authenticate := fun _ => .ok (.cra (some "ann") (some "user") secret), nonce := [1, 2], now := "now", raw := [] }

theorem C111_case_worlds (k k' : String) : Twin (world k) (world k') := ⟨rfl, rfl, rfl, fun _ => rfl⟩

private def greeting : List Both :=
  [⟨world "red", world "blue", .hello ⟨"realm1", [], some "ann", some [.str "wampcra"], none⟩⟩]

private def told (l : List Acceptor.In) : Option String :=
  (Acceptor.after toyCrypto (Acceptor.init true none (.int 5)) l).challenge

example : (∃ c, told (here greeting) = some c) ∧ told (there greeting) = told (here greeting) := by
  exact ⟨⟨_, rfl⟩, rfl⟩

example : Acceptor.reply toyCrypto (Acceptor.init true none (.int 5)) (here greeting) (world "red", .authenticate ⟨"!!", []⟩) =
      .ok (some (.abort ⟨[], "wamp.error.authentication_failed", none, none⟩)) ∧
    Acceptor.reply toyCrypto (Acceptor.init true none (.int 5)) (there greeting) (world "blue", .authenticate ⟨"!!", []⟩) =
      .ok (some (.abort ⟨[], "wamp.error.authentication_failed", none, none⟩)) := by decide +kernel

private def red : Message :=
  .authenticate ⟨signWampcraChallenge toyCrypto ((told (here greeting)).getD "") (utf8 "red"), []⟩

example : LetsIn (Acceptor.reply toyCrypto (Acceptor.init true none (.int 5)) (here greeting) (world "red", red)) := by
  refine ⟨⟨.int 5, ROUTER_ROLES, some "ann", some "user", none, []⟩, ?_⟩
  decide +kernel
example : Acceptor.reply toyCrypto (Acceptor.init true none (.int 5)) (there greeting) (world "blue", red) =
    .ok (some (.abort ⟨[], "wamp.error.authentication_failed", none, none⟩)) := by decide +kernel
end

/-! ## The client -/

/-- Two authenticators that say the same until asked. -/
structure TwinClients (au au' : ClientAuthenticator) : Prop where
  method : au'.authMethod = au.authMethod
  authid : au'.authid = au.authid
  extra : au'.authExtra = au.authExtra
  answers : ∀ ch, au'.authenticate ch = au.authenticate ch ∨ ∃ a a', au.authenticate ch = .ok a ∧ au'.authenticate ch = .ok a'

theorem twin_client {au au' : ClientAuthenticator} (h : TwinClients au au') (j : Joiner) (m : Message) :
    (j.receiveMessage au' m).1 = (j.receiveMessage au m).1 ∧
      SameButAnswer (j.receiveMessage au m).2 (j.receiveMessage au' m).2 := by
  cases m <;> try exact ⟨rfl, .inl rfl⟩
  case challenge ch =>
    simp only [Joiner.receiveMessage]
    split
    · exact ⟨rfl, .inl rfl⟩
    · rcases h.answers ch with k | ⟨a, a', k1, k2⟩
      · rw [k]; exact ⟨rfl, .inl rfl⟩
      · rw [k1, k2]; exact ⟨rfl, .inr ⟨a, a', rfl, rfl⟩⟩

theorem twin_says {au au' : ClientAuthenticator} (h : TwinClients au au') (realm : String) (past : List Does) (d : Does) :
    SameButAnswer (says realm au past d) (says realm au' past d) := by
  have hstate : ∀ j : Joiner, j.after (past.map (Does.call au')) = j.after (past.map (Does.call au)) := by
    induction past with
    | nil => intro j; rfl
    | cons x past ih =>
      intro j
      simp only [List.map_cons, Joiner.after, List.foldl_cons] at ih ⊢
      have : j.step (Does.call au' x) = j.step (Does.call au x) := by
        cases x with
        | hello r => rfl
        | receive m => exact (twin_client h j m).1
      rw [this]; exact ih _
  cases d with
  | hello r =>
    left
    simp only [says, Joiner.sendHelloMessage, Joiner.hello, hstate, h.method, h.authid, h.extra]
  | receive m =>
    simp only [says, Joiner.reply, hstate]
    exact (twin_client h _ m).2

theorem twin_wampcra (cr : Crypto) (hcr : PasswordBlind cr) (authid s s' : String) (extra : Option PyDict) :
    TwinClients (wampcraAuthenticator cr authid s extra) (wampcraAuthenticator cr authid s' extra) := by
  refine ⟨rfl, rfl, rfl, fun ch => ?_⟩
  have key : ∀ salt n k, deriveCraKey cr salt s' n k = deriveCraKey cr salt s n k ∨
      ∃ d d', deriveCraKey cr salt s n k = .ok d ∧ deriveCraKey cr salt s' n k = .ok d' := by
    intro salt n k
    cases salt <;> try exact .inl rfl
    rename_i salt
    simp only [deriveCraKey, bind, Except.bind]
    split
    · exact .inl rfl
    · split
      · exact .inl rfl
      · rcases hcr (utf8 s) (utf8 s') (utf8 salt) n k with h | ⟨d, d', h1, h2⟩
        · rw [h]; exact .inl rfl
        · rw [h1, h2]; exact .inr ⟨_, _, rfl, rfl⟩
  have key : craChoose cr s' ch.extra = craChoose cr s ch.extra ∨
      ∃ d d', craChoose cr s ch.extra = .ok d ∧ craChoose cr s' ch.extra = .ok d' := by
    simp only [craChoose]
    split
    · exact key ..
    · exact .inr ⟨_, _, rfl, rfl⟩
  have e : ∀ s, (wampcraAuthenticator cr authid s extra).authenticate ch = (craChoose cr s ch.extra).bind (craSign cr ch.extra) :=
    fun s => authenticate_eq cr s ch.authmethod ch.extra
  rw [e, e]
  rcases key with h | ⟨d, d', h1, h2⟩
  · rw [h]; exact .inl rfl
  · rw [h1, h2]
    simp only [Except.bind, craSign]
    split
    · exact .inl rfl
    · exact .inr ⟨_, _, rfl, rfl⟩
    · exact .inl rfl

/-- All a WAMP-CRA client says and raises is the same whatever its secret, but for what is in its AUTHENTICATE. -/
theorem C112_wampcra (cr : Crypto) (hcr : PasswordBlind cr) (realm authid s s' : String) (extra : Option PyDict)
    (past : List Does) (d : Does) :
    SameButAnswer (says realm (wampcraAuthenticator cr authid s extra) past d)
      (says realm (wampcraAuthenticator cr authid s' extra) past d) :=
  twin_says (twin_wampcra cr hcr authid s s' extra) realm past d

/-- PBKDF2 refuses numbers, not passwords. -/
theorem C112_pbkdf2 (H : Bytes → Bytes) (cr : Crypto) (h : cr.pbkdf2 = Hmac.pbkdf2Checked H) : PasswordBlind cr := by
  intro p p' salt n k
  rw [h]
  simp only [Hmac.pbkdf2Checked]
  cases n.asInt? with
  | none => exact .inl rfl
  | some i => cases k.asInt? with
    | none => exact .inl rfl
    | some j =>
      simp only
      split
      · exact .inl rfl
      · split
        · exact .inl rfl
        · exact .inr ⟨_, _, rfl, rfl⟩

/-- The same for a client with a ticket. -/
theorem C112_ticket (realm authid t t' : String) (extra : Option PyDict) (past : List Does) (d : Does) :
    SameButAnswer (says realm (ticketAuthenticator authid t extra) past d) (says realm (ticketAuthenticator authid t' extra) past d) := by
  refine twin_says (au := ticketAuthenticator authid t extra) (au' := ticketAuthenticator authid t' extra) ?_ realm past d
  exact ⟨rfl, rfl, rfl, fun _ => .inr ⟨_, _, rfl, rfl⟩⟩

/-- A cryptosign client says nothing of its key but the public key. -/
theorem C112_cryptosign (cr : Crypto) (realm authid k k' : String) (extra : Option PyDict) (au au' : ClientAuthenticator)
    (seed seed' : Bytes) (hk : unhexlify k = .ok seed) (hk' : unhexlify k' = .ok seed')
    (h : cryptosignAuthenticator cr authid k extra = .ok au) (h' : cryptosignAuthenticator cr authid k' extra = .ok au')
    (hp : cr.publicKey seed' = cr.publicKey seed) (past : List Does) (d : Does) :
    SameButAnswer (says realm au past d) (says realm au' past d) := by
  refine twin_says ?_ realm past d
  simp only [cryptosignAuthenticator, hk, hk', bind, Except.bind] at h h'
  split at h
  · cases h
  split at h'
  · cases h'
  cases h; cases h'
  refine ⟨rfl, rfl, by simp only [hp], fun ch => ?_⟩
  simp only [cryptosignAuthenticate, signCryptosignChallenge, bind, Except.bind]
  split
  · exact .inl rfl
  · cases hu : unhexlifyValue (PyDict.getD ch.extra "challenge") with
    | error e => exact .inl rfl
    | ok raw =>
      simp only
      cases PyDict.getD ch.extra "challenge" <;> first | exact .inl rfl | exact .inr ⟨_, _, rfl, rfl⟩

/-! Clients with different secrets: the same HELLO, different answers. -/
example : says "r" (wampcraAuthenticator toyCrypto "ann" "red" none) [] (.hello none) =
    says "r" (wampcraAuthenticator toyCrypto "ann" "blue" none) [] (.hello none) := rfl
example : says "r" (ticketAuthenticator "ann" "red" none) [.hello none] (.receive (.challenge ⟨"ticket", []⟩)) =
      .ok (some (.authenticate ⟨"red", []⟩)) ∧
    says "r" (ticketAuthenticator "ann" "blue" none) [.hello none] (.receive (.challenge ⟨"ticket", []⟩)) =
      .ok (some (.authenticate ⟨"blue", []⟩)) := ⟨rfl, rfl⟩
example : PasswordBlind { toyCrypto with pbkdf2 := Hmac.pbkdf2Checked (fun x => x) } := C112_pbkdf2 _ _ rfl

end Wamp.Spec
