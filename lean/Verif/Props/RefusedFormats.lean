import Verif.Props.Refused
import Verif.Props.HandshakeFormats

/-!
# C101 — a login that is refused, with each of the three serializers

C85 with `JSONSerializer`, `MsgPackSerializer` or `CBORSerializer` in place of an arbitrary codec.  The ABORT always arrives,
whatever the authenticator raised: its arguments are not sent (C02).
-/

namespace Wamp
open Spec

variable (f : Format)

/-- The ABORT fits every format. -/
theorem refusal_fits (args : Option (List Value)) : Fits f.limits (.list (refusal args).marshal) :=
  ⟨f.size_small 3 (by decide), f.int_id 3 (by decide) (by decide), ⟨f.size_small 0 (by decide), List.nodup_nil, trivial⟩,
    f.size_small ("wamp.error.authentication_failed".utf8ByteSize) (by decide), trivial⟩

variable (cr : Crypto) (env env2 : AuthEnv) (roles aroles : Option PyDict) (realm : String) (sid : PyInt) (args : List Value)
  (hr : RolesOk (roles.getD CLIENT_ROLES)) (fr : Fits f.limits (.dict (roles.getD CLIENT_ROLES)))
  (frealm : f.limits.size realm.utf8ByteSize)

include hr fr frealm in
/-- Anonymous login: the authenticator raises. -/
theorem C101_anonymous (authid : String) (extra : Option PyDict) (fid : f.limits.size authid.utf8ByteSize)
    (fx : Fits f.limits (.dict (extra.getD [])))
    (ha : env.authenticate (.anonymous realm (some authid) (some (extra.getD []))) = .error args) :
    HandshakeRefused f.codec cr (anonymousAuthenticator authid extra) env env2 roles (Joiner.init realm)
      (Acceptor.init true aroles sid) :=
  C85_anonymous f.codec cr env env2 roles aroles realm sid args hr authid extra ha
    (carries_fits f _ (hello_fits f _ frealm fr fid "anonymous" rfl (f.size_small _ (by decide)) _ rfl fx))
    (carries_fits f _ (refusal_fits f _))

include hr fr frealm in
/-- Ticket: the authenticator raises on the ticket. -/
theorem C101_ticket (authid ticket : String) (extra : Option PyDict) (fid : f.limits.size authid.utf8ByteSize)
    (fx : Fits f.limits (.dict (extra.getD []))) (ft : f.limits.size ticket.utf8ByteSize)
    (ha : env2.authenticate (.ticket realm (some authid) (some (extra.getD [])) ticket) = .error args) :
    HandshakeRefused f.codec cr (ticketAuthenticator authid ticket extra) env env2 roles (Joiner.init realm)
      (Acceptor.init true aroles sid) :=
  C85_ticket f.codec cr env env2 roles aroles realm sid args hr authid ticket extra ha
    (carries_fits f _ (hello_fits f _ frealm fr fid "ticket" rfl (f.size_small _ (by decide)) _ rfl fx))
    (carries_fits f _ ⟨f.size_small 3 (by decide), f.int_id 4 (by decide) (by decide), f.size_small _ (by decide),
      ⟨f.size_small 0 (by decide), List.nodup_nil, trivial⟩, trivial⟩)
    (carries_fits f _ (authenticate_fits f _ ft))
    (carries_fits f _ (refusal_fits f _))

include hr fr frealm in
/-- WAMP-CRA: the authenticator raises. -/
theorem C101_wampcra_refused (authid secret : String) (extra : Option PyDict) (fid : f.limits.size authid.utf8ByteSize)
    (fx : Fits f.limits (.dict (extra.getD [])))
    (ha : env.authenticate (.wampcra realm (some authid) (some (extra.getD []))) = .error args) :
    HandshakeRefused f.codec cr (wampcraAuthenticator cr authid secret extra) env env2 roles (Joiner.init realm)
      (Acceptor.init true aroles sid) :=
  C85_wampcra_refused f.codec cr env env2 roles aroles realm sid args hr authid secret extra ha
    (carries_fits f _ (hello_fits f _ frealm fr fid "wampcra" rfl (f.size_small _ (by decide)) _ rfl fx))
    (carries_fits f _ (refusal_fits f _))

include hr fr frealm in
/-- WAMP-CRA: the client has another secret. -/
theorem C101_wampcra_wrong_secret (authid secret secret' : String) (extra : Option PyDict) (r : Response)
    (fid : f.limits.size authid.utf8ByteSize) (fx : Fits f.limits (.dict (extra.getD [])))
    (ha : env.authenticate (.wampcra realm (some authid) (some (extra.getD []))) = .ok r) (hs : r.secret? = some secret')
    (ch : String) (hch : ch = generateWampcraChallenge env.nonce env.now sid r.authid r.authrole "dynamic")
    (hne : cr.hmac (utf8 secret) (utf8 ch) ≠ cr.hmac (utf8 secret') (utf8 ch))
    (fch : f.limits.size ch.utf8ByteSize) (fmac : f.limits.size (b64encode (cr.hmac (utf8 secret) (utf8 ch))).utf8ByteSize) :
    HandshakeRefused f.codec cr (wampcraAuthenticator cr authid secret extra) env env2 roles (Joiner.init realm)
      (Acceptor.init true aroles sid) :=
  C85_wampcra_wrong_secret f.codec cr env env2 roles aroles realm sid hr authid secret secret' extra r ha hs ch hch hne
    (carries_fits f _ (hello_fits f _ frealm fr fid "wampcra" rfl (f.size_small _ (by decide)) _ rfl fx))
    (carries_fits f _ (challenge_fits f "wampcra" (by decide) ch fch))
    (carries_fits f _ (authenticate_fits f _ fmac))
    (carries_fits f _ (refusal_fits f _))

/-- What a cryptosign client says of itself -/
theorem cryptosign_identity {au : ClientAuthenticator} {authid privateKey : String} {extra : Option PyDict}
    (hau : cryptosignAuthenticator cr authid privateKey extra = .ok au) : au.authid = some authid ∧ au.authMethod = "cryptosign" := by
  unfold cryptosignAuthenticator at hau
  cases hs : unhexlify privateKey with
  | error e => rw [hs] at hau; cases hau
  | ok seed =>
    rw [hs] at hau
    simp only [bind, Except.bind, pure, Except.pure] at hau
    split at hau
    · cases hau
    · injection hau with hau; rw [← hau]; exact ⟨rfl, rfl⟩

include hr fr frealm in
/-- Cryptosign: the authenticator raises on the announced key. -/
theorem C101_cryptosign_refused (au : ClientAuthenticator) (authid privateKey : String) (extra : Option PyDict) (pk : Value)
    (fid : f.limits.size authid.utf8ByteSize) (fx : Fits f.limits (.dict au.authExtra))
    (hau : cryptosignAuthenticator cr authid privateKey extra = .ok au)
    (hk : PyDict.get? au.authExtra "pubkey" = some pk) (hne : pk ≠ .none)
    (ha : env.authenticate (.cryptosign realm (some authid) (some au.authExtra) pk) = .error args) :
    HandshakeRefused f.codec cr au env env2 roles (Joiner.init realm) (Acceptor.init true aroles sid) := by
  obtain ⟨h1, h2⟩ := cryptosign_identity cr hau
  refine C85_cryptosign_refused f.codec cr env env2 roles aroles realm sid args hr au authid privateKey extra pk hau hk hne ha
    (carries_fits f _ (hello_fits f _ frealm fr ?_ "cryptosign" ?_ (f.size_small _ (by decide)) _ rfl fx))
    (carries_fits f _ (refusal_fits f _))
  · show FitsStr f au.authid
    rw [h1]; exact fid
  · show some [Value.str au.authMethod] = _
    rw [h2]

include hr fr frealm in
/-- Cryptosign: the announced key does not open what the client signs. -/
theorem C101_cryptosign_wrong_key (au : ClientAuthenticator) (authid privateKey : String)
    (extra : Option PyDict) (seed key : Bytes) (pk : Value) (r : Response)
    (fid : f.limits.size authid.utf8ByteSize) (fx : Fits f.limits (.dict au.authExtra))
    (hau : cryptosignAuthenticator cr authid privateKey extra = .ok au) (hseed : unhexlify privateKey = .ok seed)
    (hk : PyDict.get? au.authExtra "pubkey" = some pk) (hkk : unhexlifyValue pk = .ok key) (hl : key.length = 32)
    (ha : env.authenticate (.cryptosign realm (some authid) (some au.authExtra) pk) = .ok r)
    (hopen : cr.signOpen key (cr.sign seed env.raw ++ env.raw) = none)
    (fch : f.limits.size (hexlify env.raw).utf8ByteSize)
    (fsig : f.limits.size (hexlify (cr.sign seed env.raw) ++ hexlify env.raw).utf8ByteSize) :
    HandshakeRefused f.codec cr au env env2 roles (Joiner.init realm) (Acceptor.init true aroles sid) := by
  obtain ⟨h1, h2⟩ := cryptosign_identity cr hau
  refine C85_cryptosign_wrong_key f.codec cr env env2 roles aroles realm sid hr au authid privateKey extra seed key pk r hau hseed hk
    hkk hl ha hopen (carries_fits f _ (hello_fits f _ frealm fr ?_ "cryptosign" ?_ (f.size_small _ (by decide)) _ rfl fx))
    (carries_fits f _ (challenge_fits f "cryptosign" (by decide) _ fch))
    (carries_fits f _ (authenticate_fits f _ fsig))
    (carries_fits f _ (refusal_fits f _))
  · show FitsStr f au.authid
    rw [h1]; exact fid
  · show some [Value.str au.authMethod] = _
    rw [h2]

/-- Someone who guesses Bob's secret, with each of the three formats -/
example : HandshakeRefused f.codec toyCrypto
    (wampcraAuthenticator toyCrypto "bob" "guess" none) ⟨fun _ => .ok (.cra (some "bob") (some "user") "pw"), [1], "now", [2, 3]⟩
    ⟨fun _ => .error [], [], "", []⟩ none (Joiner.init "realm1") (Acceptor.init true none (.int 7)) := by
  have h := Acceptor.craText_eq
  refine C101_wampcra_wrong_secret f toyCrypto _ _ none none "realm1" (.int 7) rolesOk_client (clientRoles_fits f)
    (f.size_small _ (by decide)) "bob" "guess" "pw" none (.cra (some "bob") (some "user") "pw") (f.size_small _ (by decide))
    (feature_fits f 0 (by decide) _ trivial (by simp) rfl) rfl rfl Acceptor.craText h.symm (by decide +kernel)
    (f.size_small _ (by decide +kernel)) (f.size_small _ (by decide +kernel))

example : HandshakeRefused f.codec toyCrypto (anonymousAuthenticator "x" none) closed closed none (Joiner.init "realm1")
    (Acceptor.init true none (.int 7)) :=
  C101_anonymous f toyCrypto _ _ none none "realm1" (.int 7) [.str "closed"] rolesOk_client (clientRoles_fits f) (f.size_small _ (by decide)) "x" none
    (f.size_small _ (by decide)) (noExtra_fits f) rfl

example : HandshakeRefused f.codec toyCrypto (ticketAuthenticator "bob" "guess" none) guests guests none (Joiner.init "realm1")
    (Acceptor.init true none (.int 7)) :=
  C101_ticket f toyCrypto _ _ none none "realm1" (.int 7) [.str "who are you?"] rolesOk_client (clientRoles_fits f) (f.size_small _ (by decide))
    "bob" "guess" none (f.size_small _ (by decide)) (noExtra_fits f) (f.size_small _ (by decide)) rfl

example : HandshakeRefused f.codec toyCrypto (wampcraAuthenticator toyCrypto "bob" "pw" none) guests guests none (Joiner.init "realm1")
    (Acceptor.init true none (.int 7)) :=
  C101_wampcra_refused f toyCrypto _ _ none none "realm1" (.int 7) [.str "who are you?"] rolesOk_client (clientRoles_fits f) (f.size_small _ (by decide))
    "bob" "pw" none (f.size_small _ (by decide)) (noExtra_fits f) rfl

example : HandshakeRefused f.codec toyCrypto bobsKey closed closed none (Joiner.init "realm1") (Acceptor.init true none (.int 7)) :=
  C101_cryptosign_refused f toyCrypto _ _ none none "realm1" (.int 7) [.str "closed"] rolesOk_client (clientRoles_fits f) (f.size_small _ (by decide))
    bobsKey "bob" _ none _ (f.size_small _ (by decide)) (bobsExtra_fits f) bobsKey_eq rfl nofun rfl

/-- The second of two clients built around one dict: it announces the key of the first. -/
example : ∃ au, cryptosignAuthenticator toyCrypto "bob" (hexlify (List.replicate 32 9)) (some bobsKey.authExtra) = .ok au ∧
    HandshakeRefused f.codec toyCrypto au guests guests none (Joiner.init "realm1") (Acceptor.init true none (.int 7)) := by
  have hau : cryptosignAuthenticator toyCrypto "bob" (hexlify (List.replicate 32 9)) (some bobsKey.authExtra) =
      .ok ⟨"cryptosign", some "bob", bobsKey.authExtra, cryptosignAuthenticate toyCrypto (List.replicate 32 9)⟩ := by
    simp [cryptosignAuthenticator, unhexlify_hexlify, bind, Except.bind, pure, Except.pure, PyDict.get?, bobsKey]
  exact ⟨_, hau, C101_cryptosign_wrong_key f toyCrypto _ _ none none "realm1" (.int 7) rolesOk_client (clientRoles_fits f) (f.size_small _ (by decide))
    _ "bob" _ _ (List.replicate 32 9) (toyCrypto.publicKey (List.replicate 32 7)) _ (.plain (some "bob") (some "user")) (f.size_small _ (by decide))
    (bobsExtra_fits f) hau (unhexlify_hexlify _) rfl (unhexlify_hexlify _) (by decide) (by simp [guests]) (by decide)
    (f.size_small _ (by decide +kernel)) (f.size_small _ (by decide +kernel))⟩

end Wamp
