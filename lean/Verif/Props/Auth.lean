import Verif.Proofs.Encoding

/-!
# Signing and verifying challenges, C64–C66

Everything is for an arbitrary choice of cryptographic primitives `cr : Crypto`; where a law of the signature scheme is
needed it is a hypothesis (`Spec.SignatureScheme`).  The acceptor half of C65 is in `Props/Acceptor.lean`.
-/

namespace Wamp

/-- What is assumed of Ed25519: opening a signed message under the matching public key gives the message, and public keys
have 32 bytes. -/
structure Spec.SignatureScheme (cr : Crypto) : Prop where
  open_sign : ∀ seed msg, cr.signOpen (cr.publicKey seed) (cr.sign seed msg ++ msg) = some msg
  key_length : ∀ seed, (cr.publicKey seed).length = 32

open Spec

/-- Primitives used by the examples: the "MAC" and "signature" of a message are key and message, concatenated. -/
def toyCrypto : Crypto where
  hmac k m := k ++ m
  pbkdf2 s salt _ _ := .ok (s ++ salt)
  publicKey s := (s ++ List.replicate 32 0).take 32
  sign s _ := (s ++ List.replicate 32 0).take 32
  signOpen pk sm := if sm.take 32 = pk then some (sm.drop 32) else none

theorem toyCrypto_law : SignatureScheme toyCrypto where
  open_sign seed msg := by
    have hl : ((seed ++ List.replicate 32 0).take 32).length = 32 := by simp
    simp only [toyCrypto]
    rw [List.take_append_of_le_length (by omega), List.drop_append_of_le_length (by omega), List.take_of_length_le (by omega),
      if_pos rfl, List.drop_eq_nil_of_le (by omega), List.nil_append]
  key_length seed := by simp [toyCrypto]

/-! ## C64 -/

/-- A signature verifies exactly when its base64 decoding is the MAC of the challenge under the key. -/
theorem C64_verify_iff (cr : Crypto) (sig challenge : String) (key : Bytes) :
    verifyWampcraSignature cr sig challenge key = .ok true ↔ b64decode sig = .ok (cr.hmac key (utf8 challenge)) := by
  unfold verifyWampcraSignature signWampcraChallenge
  simp only [b64decode_b64encode]
  cases h : b64decode sig with
  | error e => cases e <;> simp
  | ok b => simp

/-- It never raises for ASCII text; for other text it raises ValueError. -/
theorem C64_verify_total (cr : Crypto) (sig challenge : String) (key : Bytes) :
    (isAscii sig = true → ∃ b, verifyWampcraSignature cr sig challenge key = .ok b) ∧
    (isAscii sig = false → ∃ t, verifyWampcraSignature cr sig challenge key = .error (.valueError t)) := by
  have loop : ∀ cs q l p, (∃ b, b64loop cs q l p = .ok b) ∨ b64loop cs q l p = .error .binasciiError := by
    intro cs
    induction cs with
    | nil => intro q l p; unfold b64loop; split <;> simp
    | cons c cs ih =>
      intro q l p
      unfold b64loop
      have mapped : ∀ (x : UInt8) q l p, (∃ b, (b64loop cs q l p).map (x :: ·) = .ok b) ∨
          (b64loop cs q l p).map (x :: ·) = .error .binasciiError := by
        intro x q l p
        rcases ih q l p with ⟨b, h⟩ | h
        · exact .inl ⟨x :: b, by rw [h]; rfl⟩
        · exact .inr (by rw [h]; rfl)
      split
      · split
        · split
          · exact .inl ⟨_, rfl⟩
          · exact ih ..
        · exact ih ..
      · split
        · exact ih ..
        · split
          · exact ih ..
          · exact mapped ..
          · exact mapped ..
          · exact mapped ..
  constructor
  · intro h
    unfold verifyWampcraSignature signWampcraChallenge
    simp only [b64decode_b64encode]
    rcases loop sig.toList 0 0 0 with ⟨b, hb⟩ | hb
    · have : b64decode sig = .ok b := by unfold b64decode; rw [if_pos h]; exact hb
      rw [this]; exact ⟨_, rfl⟩
    · have : b64decode sig = .error .binasciiError := by unfold b64decode; rw [if_pos h]; exact hb
      rw [this]; exact ⟨_, rfl⟩
  · intro h
    have : b64decode sig = .error (.valueError "string argument should contain only ASCII characters") := by
      unfold b64decode
      exact if_neg (fun h' => Bool.false_ne_true (h.symm.trans h'))
    unfold verifyWampcraSignature
    rw [this]; exact ⟨_, rfl⟩

/-- What `sign_wampcra_challenge` produces verifies. -/
theorem C64_sign_verifies (cr : Crypto) (challenge : String) (key : Bytes) :
    verifyWampcraSignature cr (signWampcraChallenge cr challenge key) challenge key = .ok true :=
  (C64_verify_iff ..).2 (b64decode_b64encode _)

/-- A signature made for one challenge and key verifies for another challenge and key only if the MACs collide. -/
theorem C64_no_other (cr : Crypto) (c c' : String) (k k' : Bytes) :
    verifyWampcraSignature cr (signWampcraChallenge cr c k) c' k' = .ok true ↔ cr.hmac k (utf8 c) = cr.hmac k' (utf8 c') := by
  rw [C64_verify_iff]
  unfold signWampcraChallenge
  rw [b64decode_b64encode]
  simp

example : verifyWampcraSignature toyCrypto (signWampcraChallenge toyCrypto "c" [1]) "c" [2] ≠ .ok true := by
  rw [ne_eq, C64_no_other]; decide
example : b64decode "Zm9v\nYmE=" = .ok [102, 111, 111, 98, 97] ∧ b64decode "Zm9vY" = .error .binasciiError := by decide

/-! ## C65, the client's half -/

/-- With salt, iterations and keylen in the challenge, the client signs with the base64 text of the PBKDF2 key. -/
theorem C65_client_salted (cr : Crypto) (secret salt c : String) (iterations keylen : Value) (extra : PyDict) (dk : Bytes)
    (h1 : PyDict.get? extra "salt" = some (.str salt)) (h2 : PyDict.get? extra "iterations" = some iterations)
    (h3 : PyDict.get? extra "keylen" = some keylen) (h4 : PyDict.get? extra "challenge" = some (.str c))
    (h5 : iterations.eqInt 0 = false) (h6 : keylen.eqInt 0 = false)
    (hk : cr.pbkdf2 (utf8 secret) (utf8 salt) iterations keylen = .ok dk) :
    wampcraAuthenticate cr secret ⟨"wampcra", extra⟩ =
      .ok ⟨b64encode (cr.hmac (utf8 (b64encode dk)) (utf8 c)), []⟩ := by
  simp [wampcraAuthenticate, PyDict.getD, h1, h2, h3, h4, deriveCraKey, h5, h6, hk, signWampcraChallenge, bind, Except.bind, pure,
    Except.pure]

example : ∃ extra : PyDict, PyDict.get? extra "salt" = some (.str "s") ∧ PyDict.get? extra "iterations" = some (.int 100) ∧
    PyDict.get? extra "keylen" = some (.int 32) ∧ PyDict.get? extra "challenge" = some (.str "{}") ∧
    (Value.int 100).eqInt 0 = false ∧ (Value.int 32).eqInt 0 = false :=
  ⟨[(.str "challenge", .str "{}"), (.str "salt", .str "s"), (.str "iterations", .int 100), (.str "keylen", .int 32)], by decide⟩

/-- With a salt but no (or zero) iterations or keylen the client refuses with ValueError. -/
theorem C65_client_refuses (cr : Crypto) (secret salt : String) (extra : PyDict)
    (h1 : PyDict.get? extra "salt" = some (.str salt))
    (h2 : PyDict.get? extra "iterations" = none ∨ (∃ v, PyDict.get? extra "iterations" = some v ∧ v.eqInt 0 = true) ∨
      PyDict.get? extra "keylen" = none ∨ (∃ v, PyDict.get? extra "keylen" = some v ∧ v.eqInt 0 = true)) :
    ∃ t, wampcraAuthenticate cr secret ⟨"wampcra", extra⟩ = .error (.valueError t) := by
  have key : ((PyDict.get? extra "iterations").getD (.int 0)).eqInt 0 = true ∨
      ((PyDict.get? extra "keylen").getD (.int 0)).eqInt 0 = true := by
    rcases h2 with h | ⟨v, h, hv⟩ | h | ⟨v, h, hv⟩ <;> simp [h, Value.eqInt]
    · exact .inl hv
    · exact .inr hv
  simp only [wampcraAuthenticate, PyDict.getD, h1, deriveCraKey, bind, Except.bind, Option.getD_some]
  by_cases hi : ((PyDict.get? extra "iterations").getD (.int 0)).eqInt 0 = true
  · simp [hi, throw, throwThe, MonadExceptOf.throw]
  · have := key.resolve_left hi
    simp [hi, this, throw, throwThe, MonadExceptOf.throw]

/-- Without a salt (absent or `None`) the plain secret is the key. -/
theorem C65_client_plain (cr : Crypto) (secret c : String) (extra : PyDict)
    (h1 : PyDict.get? extra "salt" = none ∨ PyDict.get? extra "salt" = some .none)
    (h4 : PyDict.get? extra "challenge" = some (.str c)) :
    wampcraAuthenticate cr secret ⟨"wampcra", extra⟩ = .ok ⟨b64encode (cr.hmac (utf8 secret) (utf8 c)), []⟩ := by
  rcases h1 with h1 | h1 <;>
    simp [wampcraAuthenticate, PyDict.getD, h1, h4, signWampcraChallenge, bind, Except.bind, pure, Except.pure]

/-- The salt of a salted response cannot even be read: the property calls itself. -/
theorem C65_salt_unreadable (r : Response) : ¬ ∃ s, r.salt = .ok s := by
  rintro ⟨s, h⟩; cases r <;> cases h

/-! ## C66 -/

/-- Signing a hex challenge succeeds, the result ends with the challenge and verifies under the matching public key. -/
theorem C66_sign_verifies (cr : Crypto) (law : SignatureScheme cr) (seed raw : Bytes) (challenge : String)
    (h : unhexlify challenge = .ok raw) :
    ∃ sig, signCryptosignChallenge cr (.str challenge) seed = .ok (sig ++ challenge) ∧ unhexlify sig = .ok (cr.sign seed raw) ∧
      verifyCryptosignSignature cr (sig ++ challenge) (cr.publicKey seed) = .ok true := by
  refine ⟨hexlify (cr.sign seed raw), ?_, unhexlify_hexlify _, ?_⟩
  · simp [signCryptosignChallenge, unhexlifyValue, h, bind, Except.bind, pure, Except.pure]
  · have := unhexlify_hexlify_append (cr.sign seed raw) challenge raw h
    simp [verifyCryptosignSignature, verifyKeyOk, law.key_length, this, law.open_sign, bind, Except.bind, pure, Except.pure]

/-- The acceptor's own challenges are hex, so they can always be signed. -/
theorem C66_own_challenges (raw : Bytes) : unhexlify (generateCryptosignChallenge raw) = .ok raw := unhexlify_hexlify raw

/-- Verification succeeds exactly when the public key has 32 bytes and opens the hex-decoded text. -/
theorem C66_verify_iff (cr : Crypto) (sig : String) (pk : Bytes) :
    verifyCryptosignSignature cr sig pk = .ok true ↔
      pk.length = 32 ∧ ∃ signed msg, unhexlify sig = .ok signed ∧ cr.signOpen pk signed = some msg := by
  unfold verifyCryptosignSignature verifyKeyOk
  by_cases hl : pk.length = 32
  · rw [if_pos hl]
    cases hs : unhexlify sig with
    | error e => simp [bind, Except.bind]
    | ok b => simp [bind, Except.bind, pure, Except.pure, hl, Option.isSome_iff_exists]
  · rw [if_neg hl]; simp [bind, Except.bind, hl]

/-- A challenge that is not hex is refused with ValueError. -/
theorem C66_bad_challenge (cr : Crypto) (seed : Bytes) (challenge : String) (e : Exc) (h : unhexlify challenge = .error e) :
    signCryptosignChallenge cr (.str challenge) seed = .error e ∧ e.isValueError = true := by
  refine ⟨by simp [signCryptosignChallenge, unhexlifyValue, h, bind, Except.bind], ?_⟩
  unfold unhexlify at h
  split at h
  · exact unhexlifyChars_valueError _ _ h
  · cases h; rfl

example : unhexlify "00ff" = .ok [0, 255] ∧ unhexlify "0g" = .error .binasciiError ∧ unhexlify "0" = .error .binasciiError := by
  decide

/-- A generated key pair fits together: an authenticator made from the private key announces the public key, and what it
signs verifies under it. -/
theorem C66_keypair (cr : Crypto) (law : SignatureScheme cr) (seed : Bytes) (hs : seed.length = 32) (authid : String)
    (challenge : String) (raw : Bytes) (h : unhexlify challenge = .ok raw) :
    ∃ a au, cryptosignAuthenticator cr authid (generateCryptosignKeypair cr seed).2 none = .ok a ∧
      PyDict.get? a.authExtra "pubkey" = some (.str (generateCryptosignKeypair cr seed).1) ∧
      a.authenticate ⟨"cryptosign", [(.str "challenge", .str challenge)]⟩ = .ok au ∧
      verifyCryptosignSignature cr au.signature (cr.publicKey seed) = .ok true ∧
      unhexlify (generateCryptosignKeypair cr seed).1 = .ok (cr.publicKey seed) := by
  obtain ⟨sig, h1, h2, h3⟩ := C66_sign_verifies cr law seed raw challenge h
  refine ⟨⟨"cryptosign", some authid, [(.str "pubkey", .str (hexlify (cr.publicKey seed)))], cryptosignAuthenticate cr seed⟩,
    ⟨sig ++ challenge, []⟩, ?_, ?_, ?_, h3, unhexlify_hexlify _⟩
  · simp [cryptosignAuthenticator, generateCryptosignKeypair, unhexlify_hexlify, hs, bind, Except.bind, pure, Except.pure,
      PyDict.get?, PyDict.set]
  · simp [PyDict.get?, generateCryptosignKeypair]
  · simp [cryptosignAuthenticate, PyDict.getD, PyDict.get?, h1, bind, Except.bind, pure, Except.pure]

example : SignatureScheme toyCrypto ∧ (List.replicate 32 (7 : UInt8)).length = 32 := ⟨toyCrypto_law, by decide⟩

end Wamp
