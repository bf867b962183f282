import Verif.Props.Challenge
import Verif.Props.RefusedFormats
import Verif.Proofs.Hmac

/-!
# C105 — only who knows the secret answers a WAMP-CRA challenge

`Model/Hmac.lean` writes HMAC down over a hash function `H`, which stays a parameter: nothing is assumed of it but the length of what
it returns.  `Spec/Hmac.lean` has the vocabulary.  A claim "… or `H` has a collision" would be empty, as every hash function has
collisions; the theorems say between which two texts, and these can be computed from what was sent and the secrets.
-/

namespace Wamp
open Spec

/-- MAC and key derivation of `cr` are HMAC and PBKDF2 over `H`, which returns 32 bytes (as SHA-256 does, `Conformance/Crypto.lean`). -/
structure OverHash (cr : Crypto) (H : Bytes → Bytes) : Prop where
  hmac : cr.hmac = Hmac.hmac H
  pbkdf2 : cr.pbkdf2 = Hmac.pbkdf2Checked H
  length : ∀ x, (H x).length = 32

/-- Equal MACs are of one text under one key (as far as HMAC tells keys apart), or the two outer texts collide, or the two inner ones. -/
def Forged (H : Bytes → Bytes) (k m k' m' : Bytes) : Prop :=
  Collides H (Hmac.outer H k m) (Hmac.outer H k' m') ∨ Collides H (Hmac.inner H k m) (Hmac.inner H k' m')

/-! ## Which keys, which texts -/

/-- Equal MACs are of the same text under the same key, or come from a collision between two given texts. -/
theorem C105_equal_macs (cr : Crypto) (H : Bytes → Bytes) (hc : OverHash cr H) (k k' m m' : Bytes) (h : cr.hmac k m = cr.hmac k' m') :
    (SameKey H k k' ∧ m = m') ∨ Forged H k m k' m' := by
  rw [hc.hmac] at h
  exact Hmac.hmac_eq H hc.length k k' m m' h

/-- Keys HMAC takes for one sign alike, and as passwords derive the same key from every salt. -/
theorem C105_same_key (cr : Crypto) (H : Bytes → Bytes) (hc : OverHash cr H) (k k' : Bytes) (h : SameKey H k k') :
    (∀ text, signWampcraChallenge cr text k = signWampcraChallenge cr text k') ∧
    ∀ salt iterations keylen, cr.pbkdf2 k salt iterations keylen = cr.pbkdf2 k' salt iterations keylen := by
  refine ⟨fun text => ?_, fun salt i l => ?_⟩
  · unfold signWampcraChallenge; rw [hc.hmac, Hmac.hmac_same H hc.length h]
  · rw [hc.pbkdf2, Hmac.pbkdf2_same H hc.length h]

/-- Of two secrets that are texts of at most 64 bytes without NUL characters, HMAC does tell which is which. -/
theorem C105_short_secrets (H : Bytes → Bytes) (p s : String) (hp : (utf8 p).length ≤ 64) (hs : (utf8 s).length ≤ 64)
    (zp : '\x00' ∉ p.toList) (zs : '\x00' ∉ s.toList) : SameKey H (utf8 p) (utf8 s) ↔ p = s := by
  constructor
  · rintro (⟨-, -, h⟩ | ⟨h, -, -⟩ | ⟨h, -, -⟩ | ⟨-, h, -⟩)
    · exact Hmac.utf8_injective (Hmac.sameKey_nonzero (fun h => zp (Hmac.utf8_zero p h)) (fun h => zs (Hmac.utf8_zero s h)) h)
    all_goals omega
  · rintro rfl; exact .inl ⟨hp, hs, 0, 0, rfl⟩

/-! ## The handshake -/

namespace Acceptor
open Spec.Hs
variable (cr : Crypto) (H : Bytes → Bytes) (au : Bool) (roles : Option PyDict) (sid : PyInt) (ins : List In)

/-- Whoever is let in with a signature made with some key of some text: the key was the secret the authenticator returned (as far as
HMAC tells keys apart) and the text was the challenge that was sent; or the two texts hashed collide.

(The full claim, that the key was the secret, is false: `C105_other_secret`.) -/
theorem C105_answer_partial (hcr : OverHash cr H) (w : Welcome) (env now : AuthEnv) (hello : Hello) (ch : Challenge) (a : Authenticate)
    (text : String) (key : Bytes)
    (hc : Challenged cr (init au roles sid) ins env hello ch) (hm : ch.authmethod = "wampcra")
    (hs : a.signature = signWampcraChallenge cr text key)
    (h : reply cr (init au roles sid) ins (now, .authenticate a) = .ok (some (.welcome w))) :
    ∃ r secret c, env.authenticate (.wampcra hello.realm hello.authid hello.authextra) = .ok r ∧ r.secret? = some secret ∧
      ch.extra = [(.str "challenge", .str c)] ∧
      ((SameKey H key (utf8 secret) ∧ text = c) ∨ Forged H key (utf8 text) (utf8 secret) (utf8 c)) := by
  obtain ⟨a1, r, secret, c, e1, e2, e3, e4, e5, -⟩ := C54_wampcra_welcome cr au roles sid ins _ w env hello ch hc hm h
  cases e1
  refine ⟨r, secret, c, e2, e3, e4, ?_⟩
  rw [hs, signWampcraChallenge, b64decode_b64encode] at e5
  rcases C105_equal_macs cr H hcr _ _ _ _ (Except.ok.inj e5) with ⟨h1, h2⟩ | h1
  · exact .inl ⟨h1, Hmac.utf8_injective h2⟩
  · exact .inr h1

/-- One AUTHENTICATE that lets in twice, in handshakes with different nonces, times or session ids: two texts that can be computed
collide. -/
theorem C105_no_replay (hcr : OverHash cr H) (au' : Bool) (roles' : Option PyDict) (sid' : PyInt) (ins' : List In)
    (env env' now now' : AuthEnv) (hello hello' : Hello) (ch ch' : Challenge) (a : Authenticate) (w w' : Welcome)
    (hc : Challenged cr (init au roles sid) ins env hello ch) (hm : ch.authmethod = "wampcra")
    (hc' : Challenged cr (init au' roles' sid') ins' env' hello' ch') (hm' : ch'.authmethod = "wampcra")
    (h : reply cr (init au roles sid) ins (now, .authenticate a) = .ok (some (.welcome w)))
    (h' : reply cr (init au' roles' sid') ins' (now', .authenticate a) = .ok (some (.welcome w')))
    (hd : (env.nonce, env.now, sid) ≠ (env'.nonce, env'.now, sid')) :
    ∃ r r' secret secret' c c', env.authenticate (.wampcra hello.realm hello.authid hello.authextra) = .ok r ∧ r.secret? = some secret ∧
      env'.authenticate (.wampcra hello'.realm hello'.authid hello'.authextra) = .ok r' ∧ r'.secret? = some secret' ∧
      ch.extra = [(.str "challenge", .str c)] ∧ ch'.extra = [(.str "challenge", .str c')] ∧ c ≠ c' ∧
      Forged H (utf8 secret) (utf8 c) (utf8 secret') (utf8 c') := by
  obtain ⟨a1, r, secret, c, e1, e2, e3, e4, e5, -⟩ := C54_wampcra_welcome cr au roles sid ins _ w env hello ch hc hm h
  obtain ⟨a2, r', secret', c', e1', e2', e3', e4', e5', -⟩ := C54_wampcra_welcome cr au' roles' sid' ins' _ w' env' hello' ch' hc' hm' h'
  cases e1; cases e1'
  obtain ⟨d, d', -, -, f1, f2, hne, -⟩ := C94_no_replay cr au roles sid ins au' roles' sid' ins' env env' now now' hello hello' ch ch' a w w'
    hc hm hc' hm' h h' hd
  rw [e4] at f1; rw [e4'] at f2
  simp only [List.cons.injEq, Prod.mk.injEq, Value.str.injEq, true_and, and_true] at f1 f2
  subst f1; subst f2
  refine ⟨r, r', secret, secret', c, c', e2, e3, e2', e3', e4, e4', hne, ?_⟩
  rw [e5] at e5'
  rcases C105_equal_macs cr H hcr _ _ _ _ (Except.ok.inj e5') with ⟨-, h2⟩ | h1
  · exact absurd (Hmac.utf8_injective h2) hne
  · exact h1

end Acceptor

/-! ## The same with the client at the other end, and each of the three serializers -/

variable (f : Format) (cr : Crypto) (H : Bytes → Bytes) (env env2 : AuthEnv) (roles aroles : Option PyDict) (realm : String) (sid : PyInt)
  (r : Response) (hr : RolesOk (roles.getD CLIENT_ROLES)) (fr : Fits f.limits (.dict (roles.getD CLIENT_ROLES)))
  (frealm : f.limits.size realm.utf8ByteSize)

theorem mac_fits (hcr : OverHash cr H) (k m : Bytes) : f.limits.size (b64encode (cr.hmac k m)).utf8ByteSize := by
  have hl : (cr.hmac k m).length = 32 := by rw [hcr.hmac]; exact hcr.length _
  have h1 := Hmac.utf8ByteSize_le (b64encode (cr.hmac k m))
  have h2 := Hmac.b64encodeChars_length (cr.hmac k m)
  rw [b64encode, String.toList_ofList, ← b64encode] at h1
  exact f.size_small _ (by omega)

include hr fr frealm in
/-- Who has another secret is not let in, unless two given texts collide: the handshake ends in ABORT. -/
theorem C105_wrong_secret (hcr : OverHash cr H) (authid secret secret' : String) (extra : Option PyDict)
    (fid : f.limits.size authid.utf8ByteSize) (fx : Fits f.limits (.dict (extra.getD [])))
    (ha : env.authenticate (.wampcra realm (some authid) (some (extra.getD []))) = .ok r) (hs : r.secret? = some secret')
    (ch : String) (hch : ch = generateWampcraChallenge env.nonce env.now sid r.authid r.authrole "dynamic")
    (fch : f.limits.size ch.utf8ByteSize)
    (hne : ¬ SameKey H (utf8 secret) (utf8 secret')) (hf : ¬ Forged H (utf8 secret) (utf8 ch) (utf8 secret') (utf8 ch)) :
    HandshakeRefused f.codec cr (wampcraAuthenticator cr authid secret extra) env env2 roles (Joiner.init realm)
      (Acceptor.init true aroles sid) :=
  C101_wampcra_wrong_secret f cr env env2 roles aroles realm sid hr fr frealm authid secret secret' extra r fid fx ha hs ch hch
    (fun h => (C105_equal_macs cr H hcr _ _ _ _ h).elim (fun h => hne h.1) hf) fch (mac_fits f cr H hcr _ _)

include hr fr frealm in
/-- False of the code: that only the secret lets in.  Every secret HMAC takes for the same key does, such as the secret followed by NUL
characters, or the hash of a secret of more than 64 bytes. -/
theorem C105_other_secret (hcr : OverHash cr H) (har : RolesOk (aroles.getD ROUTER_ROLES)) (hsid : IdOk sid)
    (fa : Fits f.limits (.dict (aroles.getD ROUTER_ROLES))) (authid secret secret' : String) (extra : Option PyDict)
    (fid : f.limits.size authid.utf8ByteSize) (fx : Fits f.limits (.dict (extra.getD [])))
    (ha : env.authenticate (.wampcra realm (some authid) (some (extra.getD []))) = .ok r) (hs : r.secret? = some secret')
    (ch : String) (hch : ch = generateWampcraChallenge env.nonce env.now sid r.authid r.authrole "dynamic")
    (fch : f.limits.size ch.utf8ByteSize) (f1 : FitsStr f r.authid) (f2 : FitsStr f r.authrole)
    (hk : SameKey H (utf8 secret) (utf8 secret')) :
    HandshakeAgrees f.codec cr (wampcraAuthenticator cr authid secret extra) env env2 roles (Joiner.init realm)
      (Acceptor.init true aroles sid) ⟨sid, realm, r.authid, r.authrole⟩ := by
  have e : wampcraAuthenticator cr authid secret extra = wampcraAuthenticator cr authid secret' extra := by
    obtain ⟨h1, h2⟩ := C105_same_key cr H hcr _ _ hk
    unfold wampcraAuthenticator
    congr 1
    funext c
    simp only [wampcraAuthenticate, deriveCraKey, h2]
    by_cases hs : PyDict.getD c.extra "salt" = .none
    · simp only [hs, ne_eq, not_true_eq_false, if_false, bind, Except.bind, h1]
    · simp only [hs, ne_eq, not_false_eq_true, if_true]
  rw [e]
  exact C95_wampcra f cr env env2 roles aroles realm sid r hr har hsid fr fa frealm authid secret' extra fid fx ha hs ch hch fch
    (mac_fits f cr H hcr _ _) f1 f2

/-! ## The hypotheses can be met -/

/-- A hash of 32 bytes: the sum of the bytes, 32 times. -/
def sumHash (x : Bytes) : Bytes := List.replicate 32 x.sum

def sumCrypto : Crypto := { toyCrypto with hmac := Hmac.hmac sumHash, pbkdf2 := Hmac.pbkdf2Checked sumHash }

theorem sumCrypto_over : OverHash sumCrypto sumHash := ⟨rfl, rfl, fun _ => by simp [sumHash]⟩

theorem sameKey_nul (H : Bytes → Bytes) : SameKey H (utf8 "pw\x00") (utf8 "pw") :=
  .inl ⟨by decide +kernel, by decide +kernel, 0, 1, by decide +kernel⟩

/-- Whatever the hash: Bob's secret is "pw", and who has "pw\0" gets in as Bob. -/
theorem C105_other_secret_case (hcr : OverHash cr H) : HandshakeAgrees f.codec cr
    (wampcraAuthenticator cr "bob" "pw\x00" none) ⟨fun _ => .ok (.cra (some "bob") (some "user") "pw"), [1], "now", [2, 3]⟩
    ⟨fun _ => .error [], [], "", []⟩ none (Joiner.init "realm1") (Acceptor.init true none (.int 7))
    ⟨.int 7, "realm1", some "bob", some "user"⟩ := by
  have h := Acceptor.craText_eq
  exact C105_other_secret f cr H _ _ none none "realm1" (.int 7) (.cra (some "bob") (some "user") "pw") rolesOk_client
    (clientRoles_fits f) (f.size_small _ (by decide)) hcr rolesOk_router (by decide) (routerRoles_fits f) "bob" "pw\x00" "pw" none
    (f.size_small _ (by decide)) (feature_fits f 0 (by decide) _ trivial (by simp) rfl) rfl rfl Acceptor.craText h.symm
    (f.size_small _ (by decide +kernel)) (f.size_small _ (by decide)) (f.size_small _ (by decide)) (sameKey_nul H)

example : ¬ SameKey sumHash (utf8 "guess") (utf8 "pw") :=
  fun h => absurd ((C105_short_secrets sumHash "guess" "pw" (by decide +kernel) (by decide +kernel) (by decide) (by decide)).1 h) (by decide)

/-- Who guesses is refused. -/
example : HandshakeRefused f.codec sumCrypto
    (wampcraAuthenticator sumCrypto "bob" "guess" none) ⟨fun _ => .ok (.cra (some "bob") (some "user") "pw"), [1], "now", [2, 3]⟩
    ⟨fun _ => .error [], [], "", []⟩ none (Joiner.init "realm1") (Acceptor.init true none (.int 7)) := by
  have h := Acceptor.craText_eq
  refine C105_wrong_secret f sumCrypto sumHash _ _ none none "realm1" (.int 7) (.cra (some "bob") (some "user") "pw") rolesOk_client
    (clientRoles_fits f) (f.size_small _ (by decide)) sumCrypto_over "bob" "guess" "pw" none
    (f.size_small _ (by decide)) (feature_fits f 0 (by decide) _ trivial (by simp) rfl) rfl rfl Acceptor.craText h.symm
    (f.size_small _ (by decide +kernel)) ?_ ?_
  · exact fun h => absurd ((C105_short_secrets sumHash "guess" "pw" (by decide +kernel) (by decide +kernel) (by decide) (by decide)).1 h)
      (by decide)
  · rintro (⟨-, h⟩ | ⟨-, h⟩) <;> revert h <;> decide +kernel

/-- Under the weak hash the answer to a challenge is also made with a key of the same sum. -/
example : Hmac.hmac sumHash (utf8 "ad") (utf8 "x") = Hmac.hmac sumHash (utf8 "da") (utf8 "x") ∧
    Collides sumHash (Hmac.inner sumHash (utf8 "ad") (utf8 "x")) (Hmac.inner sumHash (utf8 "da") (utf8 "x")) := by
  refine ⟨by decide +kernel, by decide +kernel, by decide +kernel⟩

namespace Acceptor

example : reply sumCrypto (init true none (.int 7)) craStart
    (rejects, .authenticate ⟨signWampcraChallenge sumCrypto craText (utf8 "pw"), []⟩) =
    .ok (some (.welcome ⟨.int 7, ROUTER_ROLES, some "bob", some "user", none, []⟩)) :=
  C54_wampcra_accepted sumCrypto true none (.int 7) craStart (approves (.cra (some "bob") (some "user") "pw")) rejects
    (helloFor "wampcra" []) ⟨"wampcra", [(.str "challenge", .str craText)]⟩ _ _ "pw" craText
    ⟨[], [], rfl, by rw [← craText_eq]; rfl⟩ rfl rfl rfl rfl
    (by
      rintro w ⟨pre, i, post, h, hr⟩
      cases pre with
      | nil => cases h; cases hr
      | cons x pre => simp [craStart] at h)
    rfl (b64decode_b64encode _)

end Acceptor
end Wamp
