import Verif.Proofs.Base64Read
import Verif.Props.Acceptor
import Verif.Proofs.Rfc4648

/-!
# C96, C97 — how keys, challenges and signatures are spelled

`Spec/Encoding.lean` states Base16 and Base64 of RFC 4648 over bit strings.
-/

namespace Wamp
open Spec

/-! ## C96 -/

/-- `binascii.hexlify` writes the Base16 text, and there is only one. -/
theorem C96_hex_text (b : Bytes) (t : String) : Base16 t.toList b ↔ t = hexlify b := by
  constructor
  · intro h
    have h0 := hexlify_base16 b
    unfold Base16 at *
    have := h.unique (by decide) (by decide) h0
    rw [hexlify, ← this, String.ofList_toList]
  · rintro rfl
    rw [hexlify, String.toList_ofList]; exact hexlify_base16 b

/-- `binascii.unhexlify` reads the Base16 text in either case, and no other text. -/
theorem C96_hex_read (s : String) (b : Bytes) : unhexlify s = .ok b ↔ Base16 (s.toList.map Char.toLower) b := by
  have key : Base16 (s.toList.map Char.toLower) b ↔ s.toList.map Char.toLower = hexlifyChars b := by
    have := C96_hex_text b (String.ofList (s.toList.map Char.toLower))
    rw [String.toList_ofList] at this
    rw [this, hexlify]
    constructor
    · intro h; have := congrArg String.toList h; rwa [String.toList_ofList, String.toList_ofList] at this
    · intro h; rw [h]
  rw [key, ← unhexlifyChars_iff]
  unfold unhexlify
  split
  · rfl
  · rename_i h
    constructor
    · intro h; cases h
    · intro h'
      rw [unhexlifyChars_iff] at h'
      refine absurd (isAscii_iff.2 fun c hc => ?_) h
      by_cases hc' : c.toNat < 128
      · exact hc'
      · have : c ∈ hexlifyChars b := by
          rw [← h', List.mem_map]; exact ⟨c, hc, toLower_ascii c (by omega)⟩
        exact hexlifyChars_ascii b c this

/-- `base64.b64encode` writes the Base64 text, and there is only one. -/
theorem C96_base64_text (b : Bytes) (t : String) : Base64 t.toList b ↔ t = b64encode b := by
  constructor
  · intro h
    have := base64_unique _ _ b h (b64encode_base64 b)
    rw [b64encode, ← this, String.ofList_toList]
  · rintro rfl
    rw [b64encode, String.toList_ofList]; exact b64encode_base64 b

/-- The signature of a WAMP-CRA client is the Base64 text of the MAC. -/
theorem C96_wampcra_signature (cr : Crypto) (challenge : String) (key : Bytes) :
    Base64 (signWampcraChallenge cr challenge key).toList (cr.hmac key (utf8 challenge)) :=
  (C96_base64_text ..).2 rfl

/-- The key derived from a salted secret is the Base64 text of what PBKDF2 returns. -/
theorem C96_derived_key (cr : Crypto) (salt : String) (secret : String) (iterations keylen : Value) (key : Bytes)
    (h : deriveCraKey cr (.str salt) secret iterations keylen = .ok key) :
    ∃ derived t, cr.pbkdf2 (utf8 secret) (utf8 salt) iterations keylen = .ok derived ∧ key = utf8 t ∧ Base64 t.toList derived := by
  unfold deriveCraKey at h
  simp only [bind, Except.bind, pure, Except.pure] at h
  split at h
  · cases h
  · split at h
    · cases h
    · cases hp : cr.pbkdf2 (utf8 secret) (utf8 salt) iterations keylen with
      | error e => rw [hp] at h; cases h
      | ok d =>
        rw [hp] at h; cases h
        exact ⟨d, _, rfl, rfl, (C96_base64_text ..).2 rfl⟩

/-- Keys and challenges of cryptosign are lower-case Base16. -/
theorem C96_cryptosign_texts (cr : Crypto) (seed raw : Bytes) :
    Base16 (generateCryptosignKeypair cr seed).1.toList (cr.publicKey seed) ∧
    Base16 (generateCryptosignKeypair cr seed).2.toList seed ∧ Base16 (generateCryptosignChallenge raw).toList raw :=
  ⟨(C96_hex_text ..).2 rfl, (C96_hex_text ..).2 rfl, (C96_hex_text ..).2 rfl⟩

/-- The signature of a cryptosign client is the Base16 text of the signature followed by the challenge as it was received. -/
theorem C96_cryptosign_signature (cr : Crypto) (seed : Bytes) (challenge signature : String)
    (h : signCryptosignChallenge cr (.str challenge) seed = .ok signature) :
    ∃ raw t, Base16 (challenge.toList.map Char.toLower) raw ∧ Base16 t.toList (cr.sign seed raw) ∧ signature = t ++ challenge := by
  unfold signCryptosignChallenge at h
  simp only [unhexlifyValue, bind, Except.bind, pure, Except.pure] at h
  cases hu : unhexlify challenge with
  | error e => rw [hu] at h; cases h
  | ok raw =>
    rw [hu] at h; cases h
    exact ⟨raw, _, (C96_hex_read ..).1 hu, (C96_hex_text ..).2 rfl, rfl⟩

example : hexlify [0, 255, 10] = "00ff0a" ∧ unhexlify "00Ff0A" = .ok [0, 255, 10] ∧ b64encode [77, 97] = "TWE=" := by decide +kernel

example : signCryptosignChallenge toyCrypto (.str "00FF") [1] = .ok (hexlify (toyCrypto.sign [1] [0, 255]) ++ "00FF") := by
  decide +kernel

/-! ## C97 -/

theorem b64loop_foreign (s t : List Char) (c : Char) (hc : c ∉ alphabet64) (hp : c ≠ '=') (q l p : Nat) :
    b64loop (s ++ c :: t) q l p = b64loop (s ++ t) q l p := by
  induction s generalizing q l p with
  | nil =>
    have hv := b64Val_none.2 hc
    rw [List.nil_append, List.nil_append, b64loop.eq_def]
    simp only
    rw [if_neg hp, hv]
  | cons d s ih =>
    rw [List.cons_append, List.cons_append, b64loop.eq_def, b64loop.eq_def (d :: (s ++ t))]
    simp only [ih]

theorem b64loop_appended (b : Bytes) (t : List Char) (h : b.length % 3 ≠ 0) : b64loop (b64encodeChars b ++ t) 0 0 0 = .ok b := by
  fun_induction b64encodeChars b with
  | case1 => simp at h
  | case2 a =>
    have ha := a.toNat_lt
    simp only [List.cons_append, List.nil_append]
    rw [b64loop_0 (by omega), b64loop_1 (x := a) (by omega) _ _ _ (by omega), b64loop_pad, if_pos (by omega), if_neg (by omega),
      b64loop_pad, if_pos (by omega), if_pos (by omega)]
    rfl
  | case3 a b =>
    have ha := a.toNat_lt
    have hb := b.toNat_lt
    simp only [List.cons_append, List.nil_append]
    rw [b64loop_0 (by omega), b64loop_1 (x := a) (by omega) _ _ _ (by omega), b64loop_2 (x := b) (by omega) _ _ _ (by omega),
      b64loop_pad, if_pos (by omega), if_pos (by omega)]
    rfl
  | case4 a b c rest ih =>
    have ha := a.toNat_lt
    have hb := b.toNat_lt
    have hc := c.toNat_lt
    simp only [List.cons_append]
    rw [b64loop_0 (by omega), b64loop_1 (x := a) (by omega) _ _ _ (by omega), b64loop_2 (x := b) (by omega) _ _ _ (by omega),
      b64loop_3 (x := c) (by omega) _ _ _ (by omega), ih (by simp only [List.length_cons] at h; omega)]
    rfl

/-- An ASCII character outside the alphabet, put anywhere into a signature, makes no difference. -/
theorem C97_foreign_character (cr : Crypto) (s t challenge : String) (c : Char) (key : Bytes) (hc : c ∉ alphabet64) (hp : c ≠ '=')
    (ha : c.toNat < 128) :
    verifyWampcraSignature cr (s ++ String.ofList [c] ++ t) challenge key = verifyWampcraSignature cr (s ++ t) challenge key := by
  have : b64decode (s ++ String.ofList [c] ++ t) = b64decode (s ++ t) := by
    have e : isAscii (s ++ String.ofList [c] ++ t) = isAscii (s ++ t) := by
      simp [isAscii, String.toList_append, ha]
    unfold b64decode
    rw [e]
    have := b64loop_foreign s.toList t.toList c hc hp 0 0 0
    simp only [String.toList_append, String.toList_ofList, List.append_assoc, List.cons_append, List.nil_append, this]
  unfold verifyWampcraSignature
  rw [this]

/-- Whatever ASCII text follows the padding of a right signature, it is accepted (a MAC of 32 bytes is padded). -/
theorem C97_appended_text (cr : Crypto) (challenge t : String) (key : Bytes) (ht : isAscii t = true)
    (hl : (cr.hmac key (utf8 challenge)).length % 3 ≠ 0) :
    verifyWampcraSignature cr (signWampcraChallenge cr challenge key ++ t) challenge key = .ok true := by
  rw [C64_verify_iff]
  unfold b64decode signWampcraChallenge
  rw [if_pos (isAscii_append (isAscii_b64encode _) ht), String.toList_append, b64encode, String.toList_ofList]
  exact b64loop_appended _ _ hl

end Wamp

namespace Wamp.Acceptor
open Spec Spec.Hs
variable (cr : Crypto) (au : Bool) (roles : Option PyDict) (sid : PyInt) (ins : List In) (i : In)

/-- False of the code: a challenge can be answered with two different texts. -/
theorem C97_one_text_false : ∃ (a a' : Authenticate) (w w' : Welcome), a.signature ≠ a'.signature ∧
    reply toyCrypto (init true none (.int 7)) craStart (rejects, .authenticate a) = .ok (some (.welcome w)) ∧
    reply toyCrypto (init true none (.int 7)) craStart (rejects, .authenticate a') = .ok (some (.welcome w')) := by
  have step : ∀ sig, verifyWampcraSignature toyCrypto sig craText (utf8 "pw") = .ok true →
      reply toyCrypto (init true none (.int 7)) craStart (rejects, .authenticate ⟨sig, []⟩) =
        .ok (some (.welcome ⟨.int 7, ROUTER_ROLES, some "bob", some "user", none, []⟩)) := by
    intro sig h
    rw [← craText_eq] at h
    simp [reply, after, craStart, receiveMessage, receiveHello, receiveAuthenticate, init, approves, helloFor, chooseMethod,
      Response.secret?, Response.authid, Response.authrole, h, welcomeResponse, welcome]
  refine ⟨⟨signWampcraChallenge toyCrypto craText (utf8 "pw"), []⟩,
    ⟨"" ++ String.ofList ['!'] ++ signWampcraChallenge toyCrypto craText (utf8 "pw"), []⟩, _, _, ?_,
    step _ (C64_sign_verifies ..), step _ ?_⟩
  · intro h
    have := congrArg String.length h
    simp at this
  · rw [C97_foreign_character toyCrypto _ _ _ '!' _ (by decide) (by decide) (by decide)]
    simpa using C64_sign_verifies toyCrypto craText (utf8 "pw")

/-- What holds instead: the signature of an AUTHENTICATE that is answered with WELCOME spells the MAC of the challenge.  The
characters outside the alphabet, the last bits and what follows the padding are free. -/
theorem C97_wampcra_text_partial (w : Welcome) (env : AuthEnv) (hello : Hello) (ch : Challenge)
    (hc : Challenged cr (init au roles sid) ins env hello ch) (hm : ch.authmethod = "wampcra")
    (h : reply cr (init au roles sid) ins i = .ok (some (.welcome w))) :
    ∃ a r secret c, i.2 = .authenticate a ∧ env.authenticate (.wampcra hello.realm hello.authid hello.authextra) = .ok r ∧
      r.secret? = some secret ∧ ch.extra = [(.str "challenge", .str c)] ∧
      Base64Lenient a.signature.toList (cr.hmac (utf8 secret) (utf8 c)) := by
  obtain ⟨a, r, secret, c, h1, h2, h3, h4, h5, -⟩ := C54_wampcra_welcome cr au roles sid ins i w env hello ch hc hm h
  refine ⟨a, r, secret, c, h1, h2, h3, h4, ?_⟩
  unfold b64decode at h5
  split at h5
  · obtain ⟨used, rest, fill, B, e1, e2, e3, e4, e5⟩ := b64loop_lenient _ 0 0 0 _ (by decide) (by decide) h5
    simp only [b64carry, natBits, List.nil_append] at e4
    subst e4
    exact ⟨used, rest, fill, e1, e2, e3, e5⟩
  · cases h5

/-- Exactly: while neither WELCOME nor ABORT has come, the answer to a challenge is accepted if and only if it is ASCII text which
a lenient reader takes for the MAC of the challenge. -/
theorem C97_exact (env now : AuthEnv) (hello : Hello) (ch : Challenge) (a : Authenticate) (r : Response) (secret c : String)
    (hc : Challenged cr (init au roles sid) ins env hello ch) (hm : ch.authmethod = "wampcra")
    (hr : env.authenticate (.wampcra hello.realm hello.authid hello.authextra) = .ok r) (hsec : r.secret? = some secret)
    (hch : ch.extra = [(.str "challenge", .str c)])
    (hw : ∀ w, ¬ Emitted cr (init au roles sid) ins w) (hab : isAborted (after cr (init au roles sid) ins) = false) :
    (∃ w, reply cr (init au roles sid) ins (now, .authenticate a) = .ok (some (.welcome w))) ↔
      (∀ x ∈ a.signature.toList, x.toNat < 128) ∧ Base64Read a.signature.toList (cr.hmac (utf8 secret) (utf8 c)) := by
  have ascii : isAscii a.signature = true ↔ ∀ x ∈ a.signature.toList, x.toNat < 128 := by simp [isAscii]
  rw [← ascii, ← b64decode_iff]
  constructor
  · rintro ⟨w, h⟩
    obtain ⟨a', r', secret', c', h1, h2, h3, h4, h5, -⟩ := C54_wampcra_welcome cr au roles sid ins _ w env hello ch hc hm h
    cases h1
    rw [hr] at h2; cases h2
    rw [hsec] at h3; cases h3
    rw [hch] at h4; cases h4
    exact h5
  · intro h
    exact ⟨_, C54_wampcra_accepted cr au roles sid ins env now hello ch a r secret c hc hm hr hsec hch hw hab h⟩

/-- The signature of an AUTHENTICATE that is answered with WELCOME is, but for the case of its letters, the Base16 text of
something the announced key opens. -/
theorem C97_cryptosign_text_partial (w : Welcome) (env : AuthEnv) (hello : Hello) (ch : Challenge)
    (hc : Challenged cr (init au roles sid) ins env hello ch) (hm : ch.authmethod = "cryptosign")
    (h : reply cr (init au roles sid) ins i = .ok (some (.welcome w))) :
    ∃ a pk pkb signed msg, i.2 = .authenticate a ∧ announcedKey hello = some pk ∧ unhexlifyValue pk = .ok pkb ∧
      Base16 (a.signature.toList.map Char.toLower) signed ∧ cr.signOpen pkb signed = some msg := by
  obtain ⟨a, r, pk, pkb, signed, msg, h1, h2, -, h4, -, h6, h7, -⟩ :=
    C55_cryptosign_welcome_partial cr au roles sid ins i w env hello ch hc hm h
  exact ⟨a, pk, pkb, signed, msg, h1, h2, h4, (C96_hex_read ..).1 h6, h7⟩

/-- Four letters and two foreign characters; a group filled up, and text after it; a group that is not. -/
example : Base64Read "T!WF\nu".toList [77, 97, 110] :=
  (b64loop_iff _ _).1 (by decide)
example : Base64Read "TR=.=anything".toList [77] :=
  (b64loop_iff _ _).1 (by decide)
example (b : Bytes) : ¬ Base64Read "TWE".toList b := by
  rw [← b64loop_iff]
  intro h
  have : b64loop "TWE".toList 0 0 0 = .error .binasciiError := by rfl
  rw [this] at h; cases h

end Wamp.Acceptor
