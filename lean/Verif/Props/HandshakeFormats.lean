import Verif.Props.Handshake
import Verif.Props.Acceptor
import Verif.Props.Formats

/-!
# C95 — login with each of the three serializers

C63 with `JSONSerializer`, `MsgPackSerializer` or `CBORSerializer` in place of an arbitrary codec: nothing is assumed of the
codec any more, only that the realm, the identity, the roles and the extra data are values the format can carry.
-/

namespace Wamp
open Spec

variable (f : Format)

theorem Spec.Format.size_small (n : Nat) (h : n < 2 ^ 32) : f.limits.size n := by
  cases f
  · trivial
  · exact h
  · exact Nat.lt_trans h (by decide)

theorem Spec.Format.int_id (n : Int) (h1 : 0 ≤ n) (h2 : n ≤ 2 ^ 53) : f.limits.int n := by
  cases f
  · trivial
  · exact ⟨by omega, by omega⟩
  · show n.natAbs.log2 < 2 ^ 63
    by_cases h : n.natAbs = 0
    · rw [h]; decide
    · have : n.natAbs.log2 < 54 := (Nat.log2_lt h).2 (by omega)
      exact Nat.lt_trans this (by decide)

theorem carries_fits (m : Message) (h : Fits f.limits (.list m.marshal)) : Carries f.codec m := C88_restores f _ h

/-- A string, if there is one, fits. -/
def FitsStr : Option String → Prop
  | none => True
  | some s => f.limits.size s.utf8ByteSize

/-- A key of a dict -/
theorem keyFits (s : String) (h : s.utf8ByteSize < 2 ^ 32) : ∃ t : String, Value.str s = .str t ∧ f.limits.size t.utf8ByteSize :=
  ⟨s, rfl, f.size_small _ h⟩

theorem hello_fits (h : Hello) (h1 : f.limits.size h.realm.utf8ByteSize) (h2 : Fits f.limits (.dict h.roles)) (h3 : FitsStr f h.authid)
    (method : String) (h4 : h.authmethods = some [.str method]) (h5 : f.limits.size method.utf8ByteSize) (x : PyDict)
    (h6 : h.authextra = some x) (h7 : Fits f.limits (.dict x)) : Fits f.limits (.list (Message.hello h).marshal) := by
  have s3 := f.size_small 3 (by decide)
  have s4 := f.size_small 4 (by decide)
  have s1 := f.size_small 1 (by decide)
  have i1 := f.int_id 1 (by decide) (by decide)
  have k1 := keyFits f "roles" (by decide)
  have k2 := keyFits f "authid" (by decide)
  have k3 := keyFits f "authmethods" (by decide)
  have k4 := keyFits f "authextra" (by decide)
  refine ⟨s3, i1, h1, ?_, trivial⟩
  have hm : Fits f.limits (.list [.str method]) := ⟨s1, h5, trivial⟩
  unfold Hello.detailsDict
  rw [h4, h6]
  cases ha : h.authid with
  | none => exact ⟨s3, by simp, k1, h2, k3, hm, k4, h7, trivial⟩
  | some a =>
    rw [ha] at h3
    exact ⟨s4, by simp, k1, h2, k2, h3, k3, hm, k4, h7, trivial⟩

theorem welcome_fits (w : Welcome) (hid : IdOk w.sessionId) (h2 : Fits f.limits (.dict w.roles)) (h3 : FitsStr f w.authid)
    (h4 : FitsStr f w.authrole) (h5 : FitsStr f w.authmethod) (h6 : w.authextra = []) :
    Fits f.limits (.list (Message.welcome w).marshal) := by
  have s0 := f.size_small 0 (by decide)
  have s3 := f.size_small 3 (by decide)
  have s4 := f.size_small 4 (by decide)
  have s5 := f.size_small 5 (by decide)
  have s2 := f.size_small 2 (by decide)
  have i1 := f.int_id 2 (by decide) (by decide)
  have k1 := keyFits f "roles" (by decide)
  have k2 := keyFits f "authid" (by decide)
  have k3 := keyFits f "authrole" (by decide)
  have k4 := keyFits f "authmethod" (by decide)
  have k5 := keyFits f "authextra" (by decide)
  have hs : Fits f.limits w.sessionId.toValue := by
    obtain ⟨a, b⟩ := hid
    cases hw : w.sessionId with
    | int n =>
      rw [hw] at a b
      simp only [PyInt.val] at a b
      exact f.int_id n (by omega) b
    | bool b => trivial
  have he : Fits f.limits (.dict []) := ⟨s0, List.nodup_nil, trivial⟩
  refine ⟨s3, i1, hs, ?_, trivial⟩
  unfold Welcome.detailsDict
  rw [h6]
  cases ha : w.authid <;> cases hb : w.authrole <;> cases hc : w.authmethod <;> rw [ha] at h3 <;> rw [hb] at h4 <;> rw [hc] at h5
  · exact ⟨s2, by simp, k1, h2, k5, he, trivial⟩
  · exact ⟨s3, by simp, k1, h2, k4, h5, k5, he, trivial⟩
  · exact ⟨s3, by simp, k1, h2, k3, h4, k5, he, trivial⟩
  · exact ⟨s4, by simp, k1, h2, k3, h4, k4, h5, k5, he, trivial⟩
  · exact ⟨s3, by simp, k1, h2, k2, h3, k5, he, trivial⟩
  · exact ⟨s4, by simp, k1, h2, k2, h3, k4, h5, k5, he, trivial⟩
  · exact ⟨s4, by simp, k1, h2, k2, h3, k3, h4, k5, he, trivial⟩
  · exact ⟨s5, by simp, k1, h2, k2, h3, k3, h4, k4, h5, k5, he, trivial⟩

theorem challenge_fits (method : String) (hm : method.utf8ByteSize < 2 ^ 32) (t : String) (ht : f.limits.size t.utf8ByteSize) :
    Fits f.limits (.list (Message.challenge ⟨method, [(.str "challenge", .str t)]⟩).marshal) :=
  ⟨f.size_small 3 (by decide), f.int_id 4 (by decide) (by decide), f.size_small _ hm, ⟨f.size_small 1 (by decide), by simp,
    keyFits f "challenge" (by decide), ht, trivial⟩, trivial⟩

theorem authenticate_fits (t : String) (ht : f.limits.size t.utf8ByteSize) :
    Fits f.limits (.list (Message.authenticate ⟨t, []⟩).marshal) :=
  ⟨f.size_small 3 (by decide), f.int_id 5 (by decide) (by decide), ht, ⟨f.size_small 0 (by decide), List.nodup_nil, trivial⟩, trivial⟩

variable (cr : Crypto) (env env2 : AuthEnv) (roles aroles : Option PyDict) (realm : String) (sid : PyInt) (r : Response)
  (hr : RolesOk (roles.getD CLIENT_ROLES)) (har : RolesOk (aroles.getD ROUTER_ROLES)) (hsid : IdOk sid)
  (fr : Fits f.limits (.dict (roles.getD CLIENT_ROLES))) (fa : Fits f.limits (.dict (aroles.getD ROUTER_ROLES)))
  (frealm : f.limits.size realm.utf8ByteSize)

include hr har hsid fr fa frealm in
/-- Without a server authenticator: whatever method the client offers, it is let in as "anonymous". -/
theorem C95_no_authenticator (au : ClientAuthenticator) (fid : FitsStr f au.authid) (fm : f.limits.size au.authMethod.utf8ByteSize)
    (fx : Fits f.limits (.dict au.authExtra)) :
    HandshakeAgrees f.codec cr au env env2 roles (Joiner.init realm)
      (Acceptor.init false aroles sid) ⟨sid, realm, some "anonymous", some "anonymous"⟩ :=
  C63_no_authenticator f.codec cr env env2 roles aroles realm sid hr har hsid _
    (carries_fits f _ (hello_fits f _ frealm fr fid au.authMethod rfl fm _ rfl fx))
    (carries_fits f _ (welcome_fits f _ hsid fa (f.size_small _ (by decide)) (f.size_small _ (by decide)) (f.size_small _ (by decide)) rfl))

include hr har hsid fr fa frealm in
/-- Anonymous login -/
theorem C95_anonymous (authid : String) (extra : Option PyDict) (fid : f.limits.size authid.utf8ByteSize)
    (fx : Fits f.limits (.dict (extra.getD [])))
    (ha : env.authenticate (.anonymous realm (some authid) (some (extra.getD []))) = .ok r)
    (f1 : FitsStr f r.authid) (f2 : FitsStr f r.authrole) :
    HandshakeAgrees f.codec cr (anonymousAuthenticator authid extra) env env2 roles (Joiner.init realm)
      (Acceptor.init true aroles sid) ⟨sid, realm, r.authid, r.authrole⟩ :=
  C63_anonymous f.codec cr env env2 roles aroles realm sid r hr har hsid authid extra ha
    (carries_fits f _ (hello_fits f _ frealm fr fid "anonymous" rfl (f.size_small _ (by decide)) _ rfl fx))
    (carries_fits f _ (welcome_fits f _ hsid fa f1 f2 (f.size_small _ (by decide)) rfl))

include hr har hsid fr fa frealm in
/-- Login with a ticket -/
theorem C95_ticket (authid ticket : String) (extra : Option PyDict) (fid : f.limits.size authid.utf8ByteSize)
    (fx : Fits f.limits (.dict (extra.getD []))) (ft : f.limits.size ticket.utf8ByteSize)
    (ha : env2.authenticate (.ticket realm (some authid) (some (extra.getD [])) ticket) = .ok r)
    (f1 : FitsStr f r.authid) (f2 : FitsStr f r.authrole) :
    HandshakeAgrees f.codec cr (ticketAuthenticator authid ticket extra) env env2 roles (Joiner.init realm)
      (Acceptor.init true aroles sid) ⟨sid, realm, r.authid, r.authrole⟩ :=
  C63_ticket f.codec cr env env2 roles aroles realm sid r hr har hsid authid ticket extra ha
    (carries_fits f _ (hello_fits f _ frealm fr fid "ticket" rfl (f.size_small _ (by decide)) _ rfl fx))
    (carries_fits f _ ⟨f.size_small 3 (by decide), f.int_id 4 (by decide) (by decide), f.size_small _ (by decide),
      ⟨f.size_small 0 (by decide), List.nodup_nil, trivial⟩, trivial⟩)
    (carries_fits f _ (authenticate_fits f _ ft))
    (carries_fits f _ (welcome_fits f _ hsid fa f1 f2 trivial rfl))

include hr har hsid fr fa frealm in
/-- Login with a shared secret -/
theorem C95_wampcra (authid secret : String) (extra : Option PyDict) (fid : f.limits.size authid.utf8ByteSize)
    (fx : Fits f.limits (.dict (extra.getD [])))
    (ha : env.authenticate (.wampcra realm (some authid) (some (extra.getD []))) = .ok r) (hs : r.secret? = some secret)
    (ch : String) (hch : ch = generateWampcraChallenge env.nonce env.now sid r.authid r.authrole "dynamic")
    (fch : f.limits.size ch.utf8ByteSize) (fmac : f.limits.size (b64encode (cr.hmac (utf8 secret) (utf8 ch))).utf8ByteSize)
    (f1 : FitsStr f r.authid) (f2 : FitsStr f r.authrole) :
    HandshakeAgrees f.codec cr (wampcraAuthenticator cr authid secret extra) env env2 roles (Joiner.init realm)
      (Acceptor.init true aroles sid) ⟨sid, realm, r.authid, r.authrole⟩ :=
  C63_wampcra f.codec cr env env2 roles aroles realm sid r hr har hsid authid secret extra ha hs ch hch
    (carries_fits f _ (hello_fits f _ frealm fr fid "wampcra" rfl (f.size_small _ (by decide)) _ rfl fx))
    (carries_fits f _ (challenge_fits f "wampcra" (by decide) ch fch))
    (carries_fits f _ (authenticate_fits f _ fmac))
    (carries_fits f _ (welcome_fits f _ hsid fa f1 f2 trivial rfl))

include hr har hsid fr fa frealm in
/-- Login with a key pair -/
theorem C95_cryptosign (law : SignatureScheme cr) (authid privateKey : String) (extra : Option PyDict) (seed : Bytes)
    (au : ClientAuthenticator) (pk : Value) (fid : f.limits.size authid.utf8ByteSize) (fx : Fits f.limits (.dict au.authExtra))
    (hau : cryptosignAuthenticator cr authid privateKey extra = .ok au) (hseed : unhexlify privateKey = .ok seed)
    (hk : PyDict.get? au.authExtra "pubkey" = some pk) (hkk : unhexlifyValue pk = .ok (cr.publicKey seed))
    (ha : env.authenticate (.cryptosign realm (some authid) (some au.authExtra) pk) = .ok r)
    (fch : f.limits.size (hexlify env.raw).utf8ByteSize)
    (fsig : f.limits.size (hexlify (cr.sign seed env.raw) ++ hexlify env.raw).utf8ByteSize)
    (f1 : FitsStr f r.authid) (f2 : FitsStr f r.authrole) :
    HandshakeAgrees f.codec cr au env env2 roles (Joiner.init realm) (Acceptor.init true aroles sid)
      ⟨sid, realm, r.authid, r.authrole⟩ := by
  have hid : au.authid = some authid ∧ au.authMethod = "cryptosign" := by
    unfold cryptosignAuthenticator at hau
    rw [hseed] at hau
    simp only [bind, Except.bind] at hau
    split at hau
    · split at hau
      · cases hau
      · rename_i h; cases h
    · cases hau; exact ⟨rfl, rfl⟩
  refine C63_cryptosign f.codec cr env env2 roles aroles realm sid r hr har hsid law authid privateKey extra seed au pk hau hseed hk
    hkk ha ?_ (carries_fits f _ (challenge_fits f "cryptosign" (by decide) _ fch))
    (carries_fits f _ (authenticate_fits f _ fsig))
    (carries_fits f _ (welcome_fits f _ hsid fa f1 f2 trivial rfl))
  refine carries_fits f _ (hello_fits f _ frealm fr ?_ "cryptosign" ?_ (f.size_small _ (by decide)) _ rfl fx)
  · show FitsStr f au.authid
    rw [hid.1]; exact fid
  · show some [Value.str au.authMethod] = _
    rw [hid.2]

/-! ## The hypotheses can be met -/

theorem feature_fits (n : Nat) (h : n < 2 ^ 32) (d : PyDict) (hd : FitsDict f.limits d) (hn : (d.map (·.1)).Nodup) (hl : d.length = n) :
    Fits f.limits (.dict d) := ⟨by rw [hl]; exact f.size_small _ h, hn, hd⟩

theorem noFeatures_fits : Fits f.limits (.dict [(.str "features", .dict [])]) :=
  feature_fits f 1 (by decide) _ ⟨keyFits f _ (by decide), feature_fits f 0 (by decide) _ trivial (by simp) rfl, trivial⟩ (by simp) rfl

/-- The roles clients announce by default fit every format. -/
theorem clientRoles_fits : Fits f.limits (.dict CLIENT_ROLES) :=
  feature_fits f 4 (by decide) _ ⟨keyFits f _ (by decide), noFeatures_fits f, keyFits f _ (by decide), noFeatures_fits f,
    keyFits f _ (by decide), noFeatures_fits f, keyFits f _ (by decide), noFeatures_fits f, trivial⟩ (by simp [CLIENT_ROLES]) rfl

/-- So do those of routers. -/
theorem routerRoles_fits : Fits f.limits (.dict ROUTER_ROLES) :=
  feature_fits f 2 (by decide) _ ⟨keyFits f _ (by decide), noFeatures_fits f, keyFits f _ (by decide), noFeatures_fits f, trivial⟩
    (by simp [ROUTER_ROLES]) rfl

/-- Bob logs in with each of the three formats. -/
example : HandshakeAgrees f.codec toyCrypto
    (wampcraAuthenticator toyCrypto "bob" "pw" none) ⟨fun _ => .ok (.cra (some "bob") (some "user") "pw"), [1], "now", [2, 3]⟩
    ⟨fun _ => .error [], [], "", []⟩ none (Joiner.init "realm1") (Acceptor.init true none (.int 7))
    ⟨.int 7, "realm1", some "bob", some "user"⟩ := by
  have h := Acceptor.craText_eq
  refine C95_wampcra f toyCrypto _ _ none none "realm1" (.int 7) (.cra (some "bob") (some "user") "pw") rolesOk_client
    rolesOk_router (by decide) (clientRoles_fits f) (routerRoles_fits f) (f.size_small _ (by decide)) "bob" "pw" none
    (f.size_small _ (by decide)) (feature_fits f 0 (by decide) _ trivial (by simp) rfl) rfl rfl Acceptor.craText h.symm
    (f.size_small _ (by decide +kernel)) (f.size_small _ (by decide +kernel)) (f.size_small _ (by decide)) (f.size_small _ (by decide))

theorem noExtra_fits : Fits f.limits (.dict []) := feature_fits f 0 (by decide) _ trivial (by simp) rfl

example : HandshakeAgrees f.codec toyCrypto (ticketAuthenticator "bob" "pw" none) guests guests none (Joiner.init "realm1")
    (Acceptor.init false none (.int 7)) ⟨.int 7, "realm1", some "anonymous", some "anonymous"⟩ :=
  C95_no_authenticator f toyCrypto _ _ none none "realm1" (.int 7) rolesOk_client rolesOk_router (by decide) (clientRoles_fits f) (routerRoles_fits f)
    (f.size_small _ (by decide)) _ (f.size_small _ (by decide)) (f.size_small _ (by decide)) (noExtra_fits f)

example : HandshakeAgrees f.codec toyCrypto (anonymousAuthenticator "x" none) guests guests none (Joiner.init "realm1")
    (Acceptor.init true none (.int 7)) ⟨.int 7, "realm1", some "guest", some "visitor"⟩ :=
  C95_anonymous f toyCrypto _ _ none none "realm1" (.int 7) (.plain (some "guest") (some "visitor")) rolesOk_client rolesOk_router (by decide)
    (clientRoles_fits f) (routerRoles_fits f) (f.size_small _ (by decide)) "x" none (f.size_small _ (by decide)) (noExtra_fits f) rfl
    (f.size_small _ (by decide)) (f.size_small _ (by decide))

example : HandshakeAgrees f.codec toyCrypto (ticketAuthenticator "bob" "pw" none) guests guests none (Joiner.init "realm1")
    (Acceptor.init true none (.int 7)) ⟨.int 7, "realm1", some "bob", some "user"⟩ :=
  C95_ticket f toyCrypto _ _ none none "realm1" (.int 7) (.plain (some "bob") (some "user")) rolesOk_client rolesOk_router (by decide)
    (clientRoles_fits f) (routerRoles_fits f) (f.size_small _ (by decide)) "bob" "pw" none (f.size_small _ (by decide)) (noExtra_fits f)
    (f.size_small _ (by decide)) rfl (f.size_small _ (by decide)) (f.size_small _ (by decide))

theorem bobsExtra_fits : Fits f.limits (.dict bobsKey.authExtra) :=
  feature_fits f 1 (by decide) _ ⟨keyFits f _ (by decide), f.size_small _ (by decide +kernel), trivial⟩ (by simp [bobsKey]) rfl

example : HandshakeAgrees f.codec toyCrypto bobsKey guests guests none (Joiner.init "realm1")
    (Acceptor.init true none (.int 7)) ⟨.int 7, "realm1", some "bob", some "user"⟩ :=
  C95_cryptosign f toyCrypto _ _ none none "realm1" (.int 7) (.plain (some "bob") (some "user")) rolesOk_client rolesOk_router (by decide)
    (clientRoles_fits f) (routerRoles_fits f) (f.size_small _ (by decide)) toyCrypto_law "bob" _ none _ bobsKey _ (f.size_small _ (by decide))
    (bobsExtra_fits f) bobsKey_eq (unhexlify_hexlify _) rfl (unhexlify_hexlify _) (by simp [guests]) (f.size_small _ (by decide +kernel))
    (f.size_small _ (by decide +kernel)) (f.size_small _ (by decide)) (f.size_small _ (by decide))

end Wamp
