import Verif.Model.Auth
import Verif.Props.Secret

/-!
# A concrete instance of the external primitives

The model takes the primitives of `hashlib`, `hmac` and `nacl` as a parameter (`Wamp.Crypto`).  This file writes them down as the
standards do — SHA-256 and SHA-512 (FIPS 180-4), HMAC (RFC 2104), PBKDF2 (RFC 8018, section 5.2), Ed25519 (RFC 8032) — so that the
vectors in the package's tests can be evaluated.  No theorem of `Props/` rests on it: it shows that the parameter can be
instantiated with what the code calls, nothing more.

Words are natural numbers, and everything is by structural recursion, so that the kernel can evaluate it.
-/

namespace Wamp.Conformance

/-- `f n`, with `n` evaluated first. -/
def force {α : Type} (n : Nat) (f : Nat → α) : α := Nat.rec (f 0) (fun k _ => f (k + 1)) n

/-- Big-endian number of some bytes. -/
def ofBE (b : Bytes) : Nat := b.foldl (fun n x => n * 256 + x.toNat) 0
/-- `n` as `k` bytes, big-endian. -/
def toBE : (k n : Nat) → Bytes
  | 0, _ => []
  | k + 1, n => UInt8.ofNat (n / 256 ^ k % 256) :: toBE k n
/-- Little-endian number of some bytes. -/
def ofLE : Bytes → Nat
  | [] => 0
  | x :: r => x.toNat + 256 * ofLE r
/-- `n` as `k` bytes, little-endian. -/
def toLE : (k n : Nat) → Bytes
  | 0, _ => []
  | k + 1, n => UInt8.ofNat (n % 256) :: toLE k (n / 256)

/-! ## SHA-2 -/

/-- The parameters in which SHA-256 and SHA-512 differ: bits of a word, rotation amounts of the four functions, constants, initial
hash value. -/
structure Sha2 where
  w : Nat
  S0 : Nat × Nat × Nat
  S1 : Nat × Nat × Nat
  s0 : Nat × Nat × Nat
  s1 : Nat × Nat × Nat
  K : List Nat
  H : List Nat

namespace Sha2
variable (p : Sha2)
def rotr (x n : Nat) : Nat := (x >>> n) ||| (x <<< (p.w - n)) % 2 ^ p.w
def bigSigma (r : Nat × Nat × Nat) (x : Nat) : Nat := p.rotr x r.1 ^^^ p.rotr x r.2.1 ^^^ p.rotr x r.2.2
def smallSigma (r : Nat × Nat × Nat) (x : Nat) : Nat := p.rotr x r.1 ^^^ p.rotr x r.2.1 ^^^ (x >>> r.2.2)
def ch (x y z : Nat) : Nat := (x &&& y) ^^^ ((2 ^ p.w - 1 - x) &&& z)
def maj (x y z : Nat) : Nat := (x &&& y) ^^^ (x &&& z) ^^^ (y &&& z)

/-- The message schedule: the last sixteen words are `win`; the word that follows them is pushed. -/
def expand (win : List Nat) (k : List Nat → α) : α :=
  match win with
  | w0 :: w1 :: w2 :: w3 :: w4 :: w5 :: w6 :: w7 :: w8 :: w9 :: w10 :: w11 :: w12 :: w13 :: w14 :: w15 :: _ =>
    force ((p.smallSigma p.s1 w14 + w9 + p.smallSigma p.s0 w1 + w0) % 2 ^ p.w) fun w16 =>
      k [w1, w2, w3, w4, w5, w6, w7, w8, w9, w10, w11, w12, w13, w14, w15, w16]
  | _ => k win

/-- The rounds, one for every constant. -/
def rounds : (ks : List Nat) → (win : List Nat) → (a b c d e f g h : Nat) → List Nat
  | [], _, a, b, c, d, e, f, g, h => [a, b, c, d, e, f, g, h]
  | k :: ks, win, a, b, c, d, e, f, g, h =>
    force (h + p.bigSigma p.S1 e + p.ch e f g + k + win.headD 0) fun t1 =>
    force ((t1 + p.bigSigma p.S0 a + maj a b c) % 2 ^ p.w) fun a' =>
    force ((d + t1) % 2 ^ p.w) fun e' =>
    p.expand win fun win' => rounds ks win' a' a b c e' e f g

/-- Add the result of the rounds to the hash value. -/
def addAll : List Nat → List Nat → (List Nat → α) → α
  | x :: xs, y :: ys, k => force ((x + y) % 2 ^ p.w) fun z => addAll xs ys fun zs => k (z :: zs)
  | _, _, k => k []

/-- One block. -/
def compress (hs : List Nat) (block : List Nat) (k : List Nat → α) : α :=
  match hs with
  | [a, b, c, d, e, f, g, h] => p.addAll hs (p.rounds p.K block a b c d e f g h) k
  | _ => k hs

/-- The words of a text. -/
def words : (n : Nat) → Bytes → (List Nat → α) → α
  | 0, _, k => k []
  | n + 1, b, k => force (ofBE (b.take (p.w / 8))) fun x => words n (b.drop (p.w / 8)) fun xs => k (x :: xs)

/-- All blocks. -/
def blocks : (n : Nat) → Bytes → (hs : List Nat) → List Nat
  | 0, _, hs => hs
  | n + 1, b, hs => p.words 16 (b.take (2 * p.w)) fun ws => p.compress hs ws fun hs' => blocks n (b.drop (2 * p.w)) hs'

/-- Padding: a one bit, zeros, the length in bits in two words. -/
def pad (b : Bytes) : Bytes :=
  let used := b.length + 1 + p.w / 4
  let full := (used + 2 * p.w - 1) / (2 * p.w) * (2 * p.w)
  b ++ 0x80 :: (List.replicate (full - used) 0 ++ toBE (p.w / 4) (8 * b.length))

def hash (b : Bytes) : Bytes :=
  let padded := p.pad b
  (p.blocks (padded.length / (2 * p.w)) padded p.H).flatMap (toBE (p.w / 8))
end Sha2

/-- SHA-256 -/
def sha256 : Sha2 where
  w := 32
  S0 := (2, 13, 22)
  S1 := (6, 11, 25)
  s0 := (7, 18, 3)
  s1 := (17, 19, 10)
  H := [0x6a09e667, 0xbb67ae85, 0x3c6ef372, 0xa54ff53a, 0x510e527f, 0x9b05688c, 0x1f83d9ab, 0x5be0cd19]
  K := [0x428a2f98, 0x71374491, 0xb5c0fbcf, 0xe9b5dba5, 0x3956c25b, 0x59f111f1, 0x923f82a4, 0xab1c5ed5, 0xd807aa98, 0x12835b01,
    0x243185be, 0x550c7dc3, 0x72be5d74, 0x80deb1fe, 0x9bdc06a7, 0xc19bf174, 0xe49b69c1, 0xefbe4786, 0xfc19dc6, 0x240ca1cc,
    0x2de92c6f, 0x4a7484aa, 0x5cb0a9dc, 0x76f988da, 0x983e5152, 0xa831c66d, 0xb00327c8, 0xbf597fc7, 0xc6e00bf3, 0xd5a79147,
    0x6ca6351, 0x14292967, 0x27b70a85, 0x2e1b2138, 0x4d2c6dfc, 0x53380d13, 0x650a7354, 0x766a0abb, 0x81c2c92e, 0x92722c85,
    0xa2bfe8a1, 0xa81a664b, 0xc24b8b70, 0xc76c51a3, 0xd192e819, 0xd6990624, 0xf40e3585, 0x106aa070, 0x19a4c116, 0x1e376c08,
    0x2748774c, 0x34b0bcb5, 0x391c0cb3, 0x4ed8aa4a, 0x5b9cca4f, 0x682e6ff3, 0x748f82ee, 0x78a5636f, 0x84c87814, 0x8cc70208,
    0x90befffa, 0xa4506ceb, 0xbef9a3f7, 0xc67178f2]

/-- SHA-512 -/
def sha512 : Sha2 where
  w := 64
  S0 := (28, 34, 39)
  S1 := (14, 18, 41)
  s0 := (1, 8, 7)
  s1 := (19, 61, 6)
  H := [0x6a09e667f3bcc908, 0xbb67ae8584caa73b, 0x3c6ef372fe94f82b, 0xa54ff53a5f1d36f1, 0x510e527fade682d1, 0x9b05688c2b3e6c1f,
    0x1f83d9abfb41bd6b, 0x5be0cd19137e2179]
  K := [0x428a2f98d728ae22, 0x7137449123ef65cd, 0xb5c0fbcfec4d3b2f, 0xe9b5dba58189dbbc, 0x3956c25bf348b538, 0x59f111f1b605d019,
    0x923f82a4af194f9b, 0xab1c5ed5da6d8118, 0xd807aa98a3030242, 0x12835b0145706fbe, 0x243185be4ee4b28c, 0x550c7dc3d5ffb4e2,
    0x72be5d74f27b896f, 0x80deb1fe3b1696b1, 0x9bdc06a725c71235, 0xc19bf174cf692694, 0xe49b69c19ef14ad2, 0xefbe4786384f25e3,
    0xfc19dc68b8cd5b5, 0x240ca1cc77ac9c65, 0x2de92c6f592b0275, 0x4a7484aa6ea6e483, 0x5cb0a9dcbd41fbd4, 0x76f988da831153b5,
    0x983e5152ee66dfab, 0xa831c66d2db43210, 0xb00327c898fb213f, 0xbf597fc7beef0ee4, 0xc6e00bf33da88fc2, 0xd5a79147930aa725,
    0x6ca6351e003826f, 0x142929670a0e6e70, 0x27b70a8546d22ffc, 0x2e1b21385c26c926, 0x4d2c6dfc5ac42aed, 0x53380d139d95b3df,
    0x650a73548baf63de, 0x766a0abb3c77b2a8, 0x81c2c92e47edaee6, 0x92722c851482353b, 0xa2bfe8a14cf10364, 0xa81a664bbc423001,
    0xc24b8b70d0f89791, 0xc76c51a30654be30, 0xd192e819d6ef5218, 0xd69906245565a910, 0xf40e35855771202a, 0x106aa07032bbd1b8,
    0x19a4c116b8d2d0c8, 0x1e376c085141ab53, 0x2748774cdf8eeb99, 0x34b0bcb5e19b48a8, 0x391c0cb3c5c95a63, 0x4ed8aa4ae3418acb,
    0x5b9cca4f7763e373, 0x682e6ff3d6b2b8a3, 0x748f82ee5defb2fc, 0x78a5636f43172f60, 0x84c87814a1f0ab72, 0x8cc702081a6439ec,
    0x90befffa23631e28, 0xa4506cebde82bde9, 0xbef9a3f7b2c67915, 0xc67178f2e372532b, 0xca273eceea26619c, 0xd186b8c721c0c207,
    0xeada7dd6cde0eb1e, 0xf57d4f7fee6ed178, 0x6f067aa72176fba, 0xa637dc5a2c898a6, 0x113f9804bef90dae, 0x1b710b35131c471b,
    0x28db77f523047d84, 0x32caab7b40c72493, 0x3c9ebe0a15c9bebc, 0x431d67c49c100d4c, 0x4cc5d4becb3e42b6, 0x597f299cfc657e2a,
    0x5fcb6fab3ad6faec, 0x6c44198c4a475817]

/-- "abc" (FIPS 180-4 examples). -/
example : hexlify (sha256.hash (utf8 "abc")) = "ba7816bf8f01cfea414140de5dae2223b00361a396177a9cb410ff61f20015ad" := by decide +kernel
example : hexlify (sha512.hash (utf8 "abc")) =
    "ddaf35a193617abacc417349ae20413112e6fa4e89a97ea20a9eeee64b55d39a2192992a274fc1a836ba3c23a3feebbd454d4423643ce80e2a9ac94fa54ca49f" := by
  decide +kernel

/-! ## HMAC and PBKDF2 with SHA-256 -/

/-- HMAC-SHA-256. -/
def hmacSha256 : Bytes → Bytes → Bytes := Hmac.hmac sha256.hash
def pbkdf2Sha256 : Bytes → Bytes → Nat → Nat → Bytes := Hmac.pbkdf2 sha256.hash
def pbkdf2Checked : Bytes → Bytes → Value → Value → Except Exc Bytes := Hmac.pbkdf2Checked sha256.hash

theorem force_eq (n : Nat) (f : Nat → α) : force n f = f n := by cases n <;> rfl

theorem toBE_length (k n : Nat) : (toBE k n).length = k := by
  induction k with
  | zero => rfl
  | succ k ih => simp [toBE, ih]

theorem rounds_length (p : Sha2) (ks win : List Nat) (a b c d e f g h : Nat) : (p.rounds ks win a b c d e f g h).length = 8 := by
  induction ks generalizing win a b c d e f g h with
  | nil => rfl
  | cons k ks ih =>
    simp only [Sha2.rounds, force_eq]
    unfold Sha2.expand
    split
    · rw [force_eq]; exact ih ..
    · exact ih ..

theorem addAll_eq (p : Sha2) (xs ys : List Nat) (k : List Nat → α) :
    p.addAll xs ys k = k (List.zipWith (fun x y => (x + y) % 2 ^ p.w) xs ys) := by
  induction xs generalizing ys k with
  | nil => simp [Sha2.addAll]
  | cons x xs ih =>
    cases ys with
    | nil => simp [Sha2.addAll]
    | cons y ys => simp [Sha2.addAll, force_eq, ih]

theorem words_eq (p : Sha2) (n : Nat) (b : Bytes) : ∃ ws, ∀ k : List Nat → List Nat, p.words n b k = k ws := by
  induction n generalizing b with
  | zero => exact ⟨[], fun _ => rfl⟩
  | succ n ih =>
    obtain ⟨ws, h⟩ := ih (b.drop (p.w / 8))
    exact ⟨ofBE (b.take (p.w / 8)) :: ws, fun k => by simp only [Sha2.words, force_eq, h]⟩

theorem blocks_length (p : Sha2) (n : Nat) (b : Bytes) (hs : List Nat) (h : hs.length = 8) : (p.blocks n b hs).length = 8 := by
  induction n generalizing b hs with
  | zero => exact h
  | succ n ih =>
    unfold Sha2.blocks
    obtain ⟨ws, hw⟩ := words_eq p 16 (b.take (2 * p.w))
    rw [hw]
    unfold Sha2.compress
    split
    · rw [addAll_eq]
      refine ih _ _ ?_
      rw [List.length_zipWith, rounds_length]; rfl
    · exact ih _ _ h

/-- SHA-256 returns 32 bytes, as `OverHash` (C105) asks. -/
theorem sha256_length (x : Bytes) : (sha256.hash x).length = 32 := by
  unfold Sha2.hash
  simp only [List.length_flatMap, toBE_length]
  have := blocks_length sha256 ((sha256.pad x).length / (2 * sha256.w)) (sha256.pad x) sha256.H rfl
  rw [List.map_const', this]
  rfl

/-- RFC 4231, test case 2. -/
example : hexlify (hmacSha256 (utf8 "Jefe") (utf8 "what do ya want for nothing?")) =
    "5bdcc146bf60754e6a042426089575c75a003f089d2739839dec58b964ec3843" := by decide +kernel
/-- RFC 4231, test case 6: a key longer than a block. -/
example : hexlify (hmacSha256 (List.replicate 131 0xaa) (utf8 "Test Using Larger Than Block-Size Key - Hash Key First")) =
    "60e431591ee0b67f0d8a26aacbf5b77f8e0bc6213728c5140546040f0ee37f54" := by decide +kernel
/-- RFC 7914, section 11 (one iteration, 64 bytes). -/
example : hexlify (pbkdf2Sha256 (utf8 "passwd") (utf8 "salt") 1 64) =
    "55ac046e56e3089fec1691c22544b605f94185216dde0465e68b9d57c20dacbc49ca9cccf179b645991664b39d77ef317c71b845b1e30bd509112041d3a19783" := by
  decide +kernel

/-! ## Ed25519 -/

/-- The field prime, the order of the base point, the curve constant, a square root of -1. -/
def edP : Nat := 2 ^ 255 - 19
def edL : Nat := 2 ^ 252 + 27742317777372353535851937790883648493
def edD : Nat := 37095705934669439343138083508754565189542113879843219016388785533085940283555
def edI : Nat := 19681161376707505956807079304988542015446066515923890162744021073123829784752

/-- `b ^ e % p` by squaring; `n` bounds the number of bits of `e`. -/
def powMod : (n b e acc : Nat) → Nat
  | 0, _, _, acc => acc
  | n + 1, b, e, acc =>
    force (if e % 2 = 1 then acc * b % edP else acc) fun acc' => force (b * b % edP) fun b' => force (e / 2) fun e' => powMod n b' e' acc'
def edInv (a : Nat) : Nat := powMod 255 a (edP - 2) 1

/-- A point in extended coordinates (RFC 8032, 5.1.4). -/
structure EdPoint where
  X : Nat
  Y : Nat
  Z : Nat
  T : Nat

def edSub (a b : Nat) : Nat := (a + edP - b % edP) % edP

def edAdd (p q : EdPoint) (k : EdPoint → α) : α :=
  force (edSub p.Y p.X * edSub q.Y q.X % edP) fun a =>
  force ((p.Y + p.X) * (q.Y + q.X) % edP) fun b =>
  force (2 * p.T * q.T * edD % edP) fun c =>
  force (2 * p.Z * q.Z % edP) fun d =>
  force (edSub b a) fun e => force (edSub d c) fun f => force ((d + c) % edP) fun g => force ((b + a) % edP) fun h =>
  force (e * f % edP) fun x => force (g * h % edP) fun y => force (f * g % edP) fun z => force (e * h % edP) fun t => k ⟨x, y, z, t⟩

def edZero : EdPoint := ⟨0, 1, 1, 0⟩

/-- `s * p + acc`; `n` bounds the number of bits of `s`. -/
def edMul : (n s : Nat) → (p acc : EdPoint) → EdPoint
  | 0, _, _, acc => acc
  | n + 1, s, p, acc =>
    edAdd p p fun p2 => force (s / 2) fun s' =>
      if s % 2 = 1 then edAdd acc p fun acc' => edMul n s' p2 acc' else edMul n s' p2 acc

/-- The y-coordinate, with the sign of the x-coordinate in the top bit. -/
def edEncode (p : EdPoint) : Bytes :=
  force (edInv p.Z) fun zi => force (p.X * zi % edP) fun x => force (p.Y * zi % edP) fun y => toLE 32 (y + x % 2 * 2 ^ 255)

/-- The x-coordinate that belongs to `y` (RFC 8032, 5.1.3). -/
def edRecover (y sign : Nat) : Option Nat :=
  if y ≥ edP then none else
  force ((y * y + edP - 1) % edP * edInv ((edD * y * y + 1) % edP) % edP) fun x2 =>
  if x2 = 0 then (if sign = 1 then none else some 0) else
  force (powMod 255 x2 ((edP + 3) / 8) 1) fun r =>
  force (if r * r % edP = x2 then r else r * edI % edP) fun x =>
  if x * x % edP ≠ x2 then none else some (if x % 2 = sign then x else edP - x)

def edDecode (b : Bytes) : Option EdPoint :=
  force (ofLE b) fun n => force (n % 2 ^ 255) fun y => (edRecover y (n / 2 ^ 255)).map fun x => ⟨x, y, 1, x * y % edP⟩

/-- The base point. -/
def edB : EdPoint :=
  ⟨15112221349535400772501151409588531511454012693041857206046113283949847762202,
   46316835694926478169428394003475163141307993866256225615783033603165251855960, 1,
   46827403850823179245072216630277197565144205554125654976674165829533817101731⟩

/-- The secret scalar. -/
def edScalar (h : Bytes) : Nat := force (ofLE (h.take 32)) fun n => n % 2 ^ 254 / 8 * 8 + 2 ^ 254

def edPublic (seed : Bytes) : Bytes := force (edScalar (sha512.hash seed)) fun s => edEncode (edMul 256 s edB edZero)

def edSign (seed msg : Bytes) : Bytes :=
  let h := sha512.hash seed
  force (edScalar h) fun s =>
  force (ofLE (edEncode (edMul 256 s edB edZero))) fun pub =>
  force (ofLE (sha512.hash (h.drop 32 ++ msg)) % edL) fun r =>
  force (ofLE (edEncode (edMul 256 r edB edZero))) fun R =>
  force (ofLE (sha512.hash (toLE 32 R ++ toLE 32 pub ++ msg)) % edL) fun k =>
  toLE 32 R ++ toLE 32 ((r + k * s) % edL)

/-- `crypto_sign_open`: the first 64 bytes are the signature of the rest.  libsodium also refuses points of small order; that is
left out. -/
def edOpen (pub signed : Bytes) : Option Bytes :=
  if signed.length < 64 then none else
  force (ofLE ((signed.drop 32).take 32)) fun S =>
  if S ≥ edL then none else
  match edDecode pub with
  | none => none
  | some A =>
    let msg := signed.drop 64
    force (ofLE (sha512.hash (signed.take 32 ++ pub ++ msg)) % edL) fun k =>
    if edEncode (edMul 256 k ⟨edP - A.X, A.Y, 1, edP - A.T⟩ (edMul 256 S edB edZero)) = signed.take 32 then some msg else none

/-- The primitives the package calls. -/
def crypto : Crypto := ⟨hmacSha256, pbkdf2Checked, edPublic, edSign, edOpen⟩

/-- They are HMAC and PBKDF2 over SHA-256, so C105 is about them. -/
theorem crypto_over : OverHash crypto sha256.hash := ⟨rfl, rfl, sha256_length⟩

/-- RFC 8032, 7.1, test 1: the public key. -/
example : unhexlify "9d61b19deffd5a60ba844af492ec2cc44449c5697b326919703bac031cae7f60" >>= (fun s => .ok (hexlify (edPublic s))) =
    .ok "d75a980182b10ab7d54bfed3c964073a0ee172f3daa62325af021a68f707511a" := by decide +kernel

end Wamp.Conformance
