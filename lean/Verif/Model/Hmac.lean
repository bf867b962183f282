import Verif.Model.Auth

/-!
# HMAC and PBKDF2 over a hash function

`wampcra.py:70-72` calls `hmac.new(key, ..., hashlib.sha256)` and `wampcra.py:45` calls `hashlib.pbkdf2_hmac("sha256", ...)`.  The
model takes both as a parameter (`Crypto`, `Model/Auth.lean`).  This file writes them down over any hash function `H` with blocks of
64 bytes, as RFC 2104 and RFC 8018 do (and as `Lib/hmac.py` does: keys longer than a block are hashed, shorter ones padded with
zeros).  The hash function remains a parameter.
-/

namespace Wamp.Hmac
variable (H : Bytes → Bytes)

/-- The key as a block of 64 bytes (RFC 2104, section 2, steps 1 and 2; for a key longer than a block, its hash). -/
def blockKey (key : Bytes) : Bytes :=
  let key := if key.length > 64 then H key else key
  key ++ List.replicate (64 - key.length) 0

/-- What the inner hash is taken of. -/
def inner (key msg : Bytes) : Bytes := (blockKey H key).map (· ^^^ 0x36) ++ msg

/-- What the outer hash is taken of. -/
def outer (key msg : Bytes) : Bytes := (blockKey H key).map (· ^^^ 0x5c) ++ H (inner H key msg)

/-- `hmac.new(key, msg, H).digest()` (`wampcra.py:71`) -/
def hmac (key msg : Bytes) : Bytes := H (outer H key msg)

/-- `i` as four bytes, big-endian. -/
def be32 (i : Nat) : Bytes := [UInt8.ofNat (i / 2 ^ 24), UInt8.ofNat (i / 2 ^ 16), UInt8.ofNat (i / 2 ^ 8), UInt8.ofNat i]

/-- `acc ^ MAC(u) ^ MAC(MAC(u)) ^ ...`, `n` times. -/
def xorLoop (mac : Bytes → Bytes) : (n : Nat) → (u acc : Bytes) → Bytes
  | 0, _, acc => acc
  | n + 1, u, acc => xorLoop mac n (mac u) (List.zipWith (· ^^^ ·) acc (mac u))

/-- Block `i` of the derived key: `U_1 ^ ... ^ U_c` (RFC 8018, section 5.2). -/
def deriveBlock (mac : Bytes → Bytes) (salt : Bytes) (iterations i : Nat) : Bytes :=
  let u := mac (salt ++ be32 i)
  xorLoop mac (iterations - 1) u u

/-- `hashlib.pbkdf2_hmac(H, key, salt, iterations, keylen)` (`wampcra.py:45`) -/
def pbkdf2 (key salt : Bytes) (iterations keylen : Nat) : Bytes :=
  ((List.range ((keylen + 31) / 32)).flatMap fun i => deriveBlock (hmac H key) salt iterations (i + 1)).take keylen

/-- `hashlib.pbkdf2_hmac` refuses numbers that are not positive integers. -/
def pbkdf2Checked (key salt : Bytes) (iterations keylen : Value) : Except Exc Bytes :=
  match iterations.asInt?, keylen.asInt? with
  | some i, some k =>
    if i.val < 1 then .error (.external "ValueError: iteration value must be greater than 0.")
    else if k.val < 1 then .error (.external "ValueError: key length must be greater than 0.")
    else .ok (pbkdf2 H key salt i.val.toNat k.val.toNat)
  | _, _ => .error (.external "TypeError: an integer is required")

end Wamp.Hmac
