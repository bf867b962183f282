import Verif.Model.Bytes

/-!
# Vocabulary for C105: collisions, and keys HMAC does not tell apart
-/

namespace Wamp.Spec
variable (H : Bytes → Bytes)

/-- Two texts with the same hash. -/
def Collides (x y : Bytes) : Prop := x ≠ y ∧ H x = H y

/-- They differ in nothing but zero bytes at the end. -/
def UpToZeros (x y : Bytes) : Prop := ∃ m n, x ++ List.replicate m 0 = y ++ List.replicate n 0

/-- The two ways in which HMAC takes two keys for one (RFC 2104, section 3): a short key may be followed by zeros, and a key longer than
a block stands for its hash. -/
def SameKey (k k' : Bytes) : Prop :=
  (k.length ≤ 64 ∧ k'.length ≤ 64 ∧ UpToZeros k k') ∨
  (64 < k.length ∧ 64 < k'.length ∧ H k = H k') ∨
  (64 < k.length ∧ k'.length ≤ 64 ∧ UpToZeros (H k) k') ∨
  (k.length ≤ 64 ∧ 64 < k'.length ∧ UpToZeros k (H k'))

end Wamp.Spec
