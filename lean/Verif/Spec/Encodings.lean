import Verif.Spec.Spellings

/-!
# The encodings of a text

The Unicode Standard, section 3.10: UTF-8, UTF-16 and UTF-32, the last two with the more or the less significant byte first, each
with or without a byte order mark.  UTF-8 itself is the one of Lean's library.
-/

namespace Wamp.Spec

/-- UTF-8, UTF-16, UTF-32; `big`: the most significant byte comes first -/
inductive Charset where
  | utf8
  | utf16 (big : Bool)
  | utf32 (big : Bool)
  deriving DecidableEq, Repr

/-- The bytes of a number, the most significant first -/
def twoBytes (n : Nat) : Bytes := [byte (n / 256), byte (n % 256)]
/-- The bytes of a number, the most significant first -/
def fourBytes (n : Nat) : Bytes := twoBytes (n / 2 ^ 16) ++ twoBytes (n % 2 ^ 16)
/-- In this order or the other way round -/
def ordered (big : Bool) (b : Bytes) : Bytes := if big then b else b.reverse

/-- One character: in UTF-16 those beyond the first 65536 are a pair of surrogates. -/
def Charset.char : Charset → Char → Bytes
  | .utf8, c => Wamp.utf8 (String.singleton c)
  | .utf16 big, c =>
    if c.toNat < 0x10000 then ordered big (twoBytes c.toNat)
    else ordered big (twoBytes (0xd800 + (c.toNat - 0x10000) / 0x400)) ++ ordered big (twoBytes (0xdc00 + (c.toNat - 0x10000) % 0x400))
  | .utf32 big, c => ordered big (fourBytes c.toNat)

/-- A text, perhaps after a byte order mark (the character U+FEFF) -/
def Charset.encode (e : Charset) (mark : Bool) (s : String) : Bytes :=
  (if mark then e.char '\ufeff' else []) ++ s.toList.flatMap e.char

end Wamp.Spec
