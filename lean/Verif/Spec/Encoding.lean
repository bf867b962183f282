import Verif.Model.Bytes

/-!
# Base16 and Base64 as RFC 4648 defines them

In terms of bit strings: nothing here computes with divisions of bytes, as the model does.
-/

namespace Wamp.Spec

/-- The `k` lowest bits of `n`, most significant first. -/
def natBits : Nat → Nat → List Bool
  | 0, _ => []
  | k + 1, n => natBits k (n / 2) ++ [decide (n % 2 = 1)]

/-- The bits of the bytes, in order. -/
def bits (b : Bytes) : List Bool := b.flatMap fun x => natBits 8 x.toNat

/-- RFC 4648, table 5 (lower case, as is usual in WAMP) -/
def alphabet16 : List Char := "0123456789abcdef".toList

/-- RFC 4648, table 1 -/
def alphabet64 : List Char := "ABCDEFGHIJKLMNOPQRSTUVWXYZabcdefghijklmnopqrstuvwxyz0123456789+/".toList

/-- The text spells the bits: its characters are those of the alphabet, each standing for `k` bits. -/
inductive Stands (alphabet : List Char) (k : Nat) : List Char → List Bool → Prop
  | nil : Stands alphabet k [] []
  | cons {i c t b} (h : alphabet[i]? = some c) (ht : Stands alphabet k t b) : Stands alphabet k (c :: t) (natBits k i ++ b)

/-- RFC 4648, section 8 -/
def Base16 (t : List Char) (b : Bytes) : Prop := Stands alphabet16 4 t (bits b)

/-- RFC 4648, section 4: zero bits fill up the last character, `=` fill up the last group of four characters. -/
def Base64 (t : List Char) (b : Bytes) : Prop :=
  ∃ body fill pad, Stands alphabet64 6 body (bits b ++ List.replicate fill false) ∧ fill < 6 ∧
    t = body ++ List.replicate pad '=' ∧ pad < 4 ∧ t.length % 4 = 0

/-- A text a lenient reader takes for the bytes: characters outside the alphabet do not count, the bits that fill up the last
character may be any, and what follows the padding does not count. -/
def Base64Lenient (t : List Char) (b : Bytes) : Prop :=
  ∃ used rest fill, t = used ++ rest ∧ (rest ≠ [] → ∃ u, used = u ++ ['=']) ∧
    Stands alphabet64 6 (used.filter (· ∈ alphabet64)) (bits b ++ fill) ∧ fill.length < 6

/-- The letters of a text -/
def letters64 (t : List Char) : List Char := t.filter (· ∈ alphabet64)

/-- The `=` after the last letter -/
def padding64 (t : List Char) : Nat := (t.reverse.takeWhile (· ∉ alphabet64)).count '='

/-- The last group of four has two or three letters, and there are enough `=` after them to fill it up. -/
def FilledUp (t : List Char) : Prop := 2 ≤ (letters64 t).length % 4 ∧ 4 ≤ (letters64 t).length % 4 + padding64 t

/-- The texts a lenient reader takes for the bytes, exactly: it stops when a group has been filled up; or else all letters of the text
are in groups of four.  The letters read are the bits of the bytes and fewer than six more. -/
def Base64Read (t : List Char) (b : Bytes) : Prop :=
  ∃ used rest fill, t = used ++ rest ∧ (∀ u v, used = u ++ v → v ≠ [] → ¬ FilledUp u) ∧
    (FilledUp used ∨ rest = [] ∧ (letters64 used).length % 4 = 0) ∧
    Stands alphabet64 6 (letters64 used) (bits b ++ fill) ∧ fill.length < 6

end Wamp.Spec
