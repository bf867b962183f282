import Verif.Model.Json

/-!
# Authentication — `wampproto/auth/*.py`

Hex and base64 (`binascii`, `base64`) are modelled concretely, as CPython implements them.  The cryptographic
primitives are parameters (`Crypto`); randomness and the clock are inputs.
Simplification: strings contain no lone surrogates, so `str.encode()` never fails.
-/

namespace Wamp

/-! ## `binascii.hexlify`, `binascii.unhexlify` / `a2b_hex` (CPython `Modules/binascii.c`) -/

/-- Lower-case hex digit of `n < 16`. -/
def hexDigit (n : Nat) : Char := if n < 10 then Char.ofNat (48 + n) else Char.ofNat (87 + n)

/-- `binascii.hexlify(b)` as characters -/
def hexlifyChars : Bytes → List Char
  | [] => []
  | b :: rest => hexDigit (b.toNat / 16) :: hexDigit (b.toNat % 16) :: hexlifyChars rest

/-- `binascii.hexlify(b).decode()` -/
def hexlify (b : Bytes) : String := String.ofList (hexlifyChars b)

/-- Value of a hex digit of either case. -/
def hexVal (c : Char) : Option Nat :=
  if 48 ≤ c.toNat ∧ c.toNat ≤ 57 then some (c.toNat - 48)
  else if 97 ≤ c.toNat ∧ c.toNat ≤ 102 then some (c.toNat - 87)
  else if 65 ≤ c.toNat ∧ c.toNat ≤ 70 then some (c.toNat - 55)
  else none

/-- Digit pairs; odd length or a non-digit is `binascii.Error`. -/
def unhexlifyChars : List Char → Except Exc Bytes
  | [] => .ok []
  | [_] => .error .binasciiError
  | a :: b :: rest =>
    match hexVal a, hexVal b with
    | some x, some y => (unhexlifyChars rest).map (UInt8.ofNat (x * 16 + y) :: ·)
    | _, _ => .error .binasciiError

/-- Is every character ASCII? -/
def isAscii (s : String) : Bool := s.toList.all (·.toNat < 128)

/-- `binascii.unhexlify(s)` / `a2b_hex(s)` of a `str`: non-ASCII text is a plain `ValueError`. -/
def unhexlify (s : String) : Except Exc Bytes :=
  if isAscii s then unhexlifyChars s.toList
  else .error (.valueError "string argument should contain only ASCII characters")

/-- The same of an arbitrary object: `bytes` are taken as ASCII digits, anything else is a `TypeError`. -/
def unhexlifyValue : Value → Except Exc Bytes
  | .str s => unhexlify s
  | .bytes b => unhexlifyChars (b.map fun x => Char.ofNat x.toNat)
  | _ => .error (.typeError "argument should be bytes, buffer or ASCII string")

/-! ## `base64.b64encode`, `base64.b64decode` (CPython `binascii.b2a_base64`, non-strict `a2b_base64`) -/

/-- Character of the alphabet for `n < 64`. -/
def b64Char (n : Nat) : Char :=
  if n < 26 then Char.ofNat (65 + n) else if n < 52 then Char.ofNat (71 + n) else if n < 62 then Char.ofNat (n - 4)
  else if n = 62 then '+' else '/'

/-- Value of an alphabet character. -/
def b64Val (c : Char) : Option Nat :=
  if 65 ≤ c.toNat ∧ c.toNat ≤ 90 then some (c.toNat - 65)
  else if 97 ≤ c.toNat ∧ c.toNat ≤ 122 then some (c.toNat - 71)
  else if 48 ≤ c.toNat ∧ c.toNat ≤ 57 then some (c.toNat + 4)
  else if c = '+' then some 62 else if c = '/' then some 63 else none

/-- Groups of three bytes to four characters, padded with `=`. -/
def b64encodeChars : Bytes → List Char
  | [] => []
  | [a] => [b64Char (a.toNat / 4), b64Char (a.toNat % 4 * 16), '=', '=']
  | [a, b] => [b64Char (a.toNat / 4), b64Char (a.toNat % 4 * 16 + b.toNat / 16), b64Char (b.toNat % 16 * 4), '=']
  | a :: b :: c :: rest =>
    b64Char (a.toNat / 4) :: b64Char (a.toNat % 4 * 16 + b.toNat / 16) :: b64Char (b.toNat % 16 * 4 + c.toNat / 64) ::
      b64Char (c.toNat % 64) :: b64encodeChars rest

/-- `base64.b64encode(b).decode()` -/
def b64encode (b : Bytes) : String := String.ofList (b64encodeChars b)

/-- The decoding loop of `a2b_base64` (non-strict): `quad` characters of the current group seen, `left` bits carried,
`pads` padding characters seen since the last data character.  Characters outside the alphabet are skipped; enough
padding ends the input; input ending inside a group is `binascii.Error`. -/
def b64loop : List Char → (quad left pads : Nat) → Except Exc Bytes
  | [], quad, _, _ => if quad = 0 then .ok [] else .error .binasciiError
  | ch :: rest, quad, left, pads =>
    if ch = '=' then
      if quad ≥ 2 then (if quad + (pads + 1) ≥ 4 then .ok [] else b64loop rest quad left (pads + 1))
      else b64loop rest quad left pads
    else match b64Val ch with
      | none => b64loop rest quad left pads
      | some v =>
        match quad with
        | 0 => b64loop rest 1 v 0
        | 1 => (b64loop rest 2 (v % 16) 0).map (UInt8.ofNat (left * 4 + v / 16) :: ·)
        | 2 => (b64loop rest 3 (v % 4) 0).map (UInt8.ofNat (left * 16 + v / 4) :: ·)
        | _ => (b64loop rest 0 0 0).map (UInt8.ofNat (left * 64 + v) :: ·)

/-- `base64.b64decode(s)` of a `str`: non-ASCII text is a plain `ValueError` (not `binascii.Error`). -/
def b64decode (s : String) : Except Exc Bytes :=
  if isAscii s then b64loop s.toList 0 0 0
  else .error (.valueError "string argument should contain only ASCII characters")

/-! ## External primitives -/

/-- The primitives of `hashlib`, `hmac` and `nacl` the code calls. -/
structure Crypto where
  /-- `hmac.new(key, msg, hashlib.sha256).digest()` -/
  hmac : (key msg : Bytes) → Bytes
  /-- `hashlib.pbkdf2_hmac("sha256", secret, salt, iterations, keylen)`, which may refuse its arguments -/
  pbkdf2 : (secret salt : Bytes) → (iterations keylen : Value) → Except Exc Bytes
  /-- `SigningKey(seed).verify_key.encode()` -/
  publicKey : (seed : Bytes) → Bytes
  /-- `SigningKey(seed).sign(msg).signature` -/
  sign : (seed msg : Bytes) → Bytes
  /-- `crypto_sign_open(signed message, public key)`: the message, or `none` for `BadSignatureError` -/
  signOpen : (publicKey signed : Bytes) → Option Bytes

/-! ## `auth.py` -/

/-- `Request` and its subclasses (`auth.py:27-83`); the acceptor never sets `authrole`.
The public key is whatever the client put into `authextra`. -/
inductive Request where
  | anonymous (realm : String) (authid : Option String) (authExtra : Option PyDict)
  | ticket (realm : String) (authid : Option String) (authExtra : Option PyDict) (ticket : String)
  | wampcra (realm : String) (authid : Option String) (authExtra : Option PyDict)
  | cryptosign (realm : String) (authid : Option String) (authExtra : Option PyDict) (publicKey : Value)
  deriving DecidableEq, Repr

/-- `Response` (`auth.py:86-97`), `WAMPCRAResponse` (`auth.py:100-107`), `WAMPCRASaltedResponse` (`auth.py:110-127`).
`authid`/`authrole` may be `None`. -/
inductive Response where
  | plain (authid authrole : Option String)
  | cra (authid authrole : Option String) (secret : String)
  | salted (authid authrole : Option String) (secret salt : String) (iterations keylen : Int)
  deriving DecidableEq, Repr

namespace Response
/-- `Response.authid` (`auth.py:91-93`) -/
def authid : Response → Option String
  | plain a _ | cra a _ _ | salted a _ _ _ _ _ => a
/-- `Response.authrole` (`auth.py:95-97`) -/
def authrole : Response → Option String
  | plain _ r | cra _ r _ | salted _ r _ _ _ _ => r
/-- `isinstance(response, WAMPCRAResponse)` with `WAMPCRAResponse.secret` (`auth.py:105-107`) -/
def secret? : Response → Option String
  | plain _ _ => none
  | cra _ _ s => some s
  | salted _ _ s _ _ _ => some s
/-- `WAMPCRASaltedResponse.salt` (`auth.py:117-119`) returns `self.salt`, i.e. calls itself for ever. -/
def salt : Response → Except Exc String
  | salted .. => .error .recursionError
  | _ => .error .attributeError
end Response

/-! ## `wampcra.py` -/

/-- `derive_cra_key` (`wampcra.py:34-46`): the base64 text of the key, as bytes. -/
def deriveCraKey (cr : Crypto) (saltStr : Value) (secret : String) (iterations keyLength : Value) : Except Exc Bytes := do
  let salt ← match saltStr with
    | .str s => .ok (utf8 s)
    | _ => .error .attributeError
  if iterations.eqInt 0 then throw (.valueError "iterations string required in extra & should be greater than 0")
  if keyLength.eqInt 0 then throw (.valueError "keylen string missing in extra & should be greater than 0")
  let derivedKey ← cr.pbkdf2 (utf8 secret) salt iterations keyLength
  return utf8 (b64encode derivedKey)

/-- `generate_wampcra_challenge` (`wampcra.py:54-67`); `nonce` is `random.randbytes(16)`, `now` is `utcnow()`.
`json.dumps` of this dict never raises: its text is written directly. -/
def generateWampcraChallenge (nonce : Bytes) (now : String) (sessionId : PyInt) (authid authrole : Option String)
    (provider : String) : String :=
  let opt (x : Option String) : Value := match x with | some s => .str s | none => .none
  String.ofList (Json.text (.dict [(.str "nonce", .str (hexlify nonce)), (.str "authprovider", .str provider), (.str "authid", opt authid),
    (.str "authrole", opt authrole), (.str "authmethod", .str "wampcra"), (.str "session", sessionId.toValue),
    (.str "timestamp", .str now)]))

/-- `sign_wampcra_challenge` (`wampcra.py:70-72`) -/
def signWampcraChallenge (cr : Crypto) (challenge : String) (key : Bytes) : String :=
  b64encode (cr.hmac key (utf8 challenge))

/-- `verify_wampcra_signature` (`wampcra.py:75-82`): only `binascii.Error` is caught. -/
def verifyWampcraSignature (cr : Crypto) (signature challenge : String) (key : Bytes) : Except Exc Bool :=
  match b64decode signature with
  | .error .binasciiError => .ok false
  | .error e => .error e
  | .ok sigBytes =>
    let localSignature := signWampcraChallenge cr challenge key
    match b64decode localSignature with
    | .error e => .error e
    | .ok localBytes => .ok (sigBytes = localBytes)

/-! ## `cryptosign.py` -/

/-- `nacl.signing.VerifyKey(key)`: the key must have 32 bytes. -/
def verifyKeyOk (publicKey : Bytes) : Except Exc Unit :=
  if publicKey.length = 32 then .ok () else .error (.valueError "The key must be exactly 32 bytes long")

/-- `generate_cryptosign_challenge` (`cryptosign.py:33-35`); `raw` is `random.randbytes(32)`. -/
def generateCryptosignChallenge (raw : Bytes) : String := hexlify raw

/-- `sign_cryptosign_challenge` (`cryptosign.py:38-40`); the challenge comes from the peer's dict. -/
def signCryptosignChallenge (cr : Crypto) (challenge : Value) (seed : Bytes) : Except Exc String := do
  let raw ← unhexlifyValue challenge
  match challenge with
  | .str c => return hexlify (cr.sign seed raw) ++ c
  | _ => throw (.typeError "can only concatenate str (not \"bytes\") to str")

/-- `verify_cryptosign_signature` (`cryptosign.py:43-50`): only `BadSignatureError` is caught. -/
def verifyCryptosignSignature (cr : Crypto) (signature : String) (publicKey : Bytes) : Except Exc Bool := do
  verifyKeyOk publicKey
  let signed ← unhexlify signature
  return (cr.signOpen publicKey signed).isSome

/-! ## Client authenticators -/

/-- `IClientAuthenticator` (`auth.py:4-24`) as the joiner uses it. -/
structure ClientAuthenticator where
  authMethod : String
  authid : Option String
  authExtra : PyDict
  authenticate : Challenge → Except Exc Authenticate

/-- `AnonymousAuthenticator` (`anonymous.py:4-11`) -/
def anonymousAuthenticator (authid : String) (authExtra : Option PyDict) : ClientAuthenticator :=
  ⟨"anonymous", some authid, authExtra.getD [], fun _ => .error .notImplementedError⟩

/-- `TicketAuthenticator` (`ticket.py:5-13`) -/
def ticketAuthenticator (authid ticket : String) (authExtra : Option PyDict) : ClientAuthenticator :=
  ⟨"ticket", some authid, authExtra.getD [], fun _ => .ok ⟨ticket, []⟩⟩

/-- `WAMPCRAAuthenticator.authenticate` (`wampcra.py:20-31`) -/
def wampcraAuthenticate (cr : Crypto) (secret : String) (challenge : Challenge) : Except Exc Authenticate := do
  let salt := PyDict.getD challenge.extra "salt"
  let iterations := (PyDict.get? challenge.extra "iterations").getD (.int 0)
  let keyLength := (PyDict.get? challenge.extra "keylen").getD (.int 0)
  let rawSecret ← if salt ≠ .none then deriveCraKey cr salt secret iterations keyLength else .ok (utf8 secret)
  match PyDict.get? challenge.extra "challenge" with
  | none => throw .keyError
  | some (.str c) => return ⟨signWampcraChallenge cr c rawSecret, []⟩
  | some _ => throw .attributeError

/-- `WAMPCRAAuthenticator` (`wampcra.py:13-31`) -/
def wampcraAuthenticator (cr : Crypto) (authid secret : String) (authExtra : Option PyDict) : ClientAuthenticator :=
  ⟨"wampcra", some authid, authExtra.getD [], wampcraAuthenticate cr secret⟩

/-- `CryptoSignAuthenticator.authenticate` (`cryptosign.py:23-30`) -/
def cryptosignAuthenticate (cr : Crypto) (seed : Bytes) (challenge : Challenge) : Except Exc Authenticate := do
  let challengeHex := PyDict.getD challenge.extra "challenge"
  if challengeHex = .none then throw (.valueError "challenge string missing in extra")
  let signed ← signCryptosignChallenge cr challengeHex seed
  return ⟨signed, []⟩

/-- `CryptoSignAuthenticator.__init__` (`cryptosign.py:15-21`); `nacl.signing.SigningKey` wants 32 bytes. -/
def cryptosignAuthenticator (cr : Crypto) (authid privateKey : String) (authExtra : Option PyDict) :
    Except Exc ClientAuthenticator := do
  let seed ← unhexlify privateKey
  if seed.length ≠ 32 then throw (.valueError "The seed must be exactly 32 bytes long")
  let extra := authExtra.getD []
  let extra := if (PyDict.get? extra "pubkey").isSome then extra
    else PyDict.set extra "pubkey" (.str (hexlify (cr.publicKey seed)))
  return ⟨"cryptosign", some authid, extra, cryptosignAuthenticate cr seed⟩

/-- `generate_cryptosign_keypair` (`cryptosign.py:53-60`); `seed` is the random signing key. -/
def generateCryptosignKeypair (cr : Crypto) (seed : Bytes) : String × String := (hexlify (cr.publicKey seed), hexlify seed)

end Wamp
