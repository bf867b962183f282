import Verif.Model.Bytes

/-!
# Texts as bytes

`bytes.decode` of CPython for the encodings of Unicode, and `json.detect_encoding` (`json/__init__.py` of CPython): what
`json.loads` does with `bytes` (`payload.py:89`) before it reads the text.  This file models the language, not a file of
`/repo`.

Simplification: strings of the model have no lone surrogates, which `decode(…, "surrogatepass")` lets through; here they are
errors.
-/

namespace Wamp

/-- Numbers of two bytes each; `big`: the first byte is the more significant one -/
def units16 (big : Bool) : Bytes → Option (List Nat)
  | [] => some []
  | [_] => none
  | a :: b :: r => (units16 big r).map ((if big then a.toNat * 256 + b.toNat else b.toNat * 256 + a.toNat) :: ·)

/-- Characters of one unit or, if they are beyond the first 65536, of two -/
def chars16 : List Nat → Option (List Char)
  | [] => some []
  | u :: r =>
    if 0xd800 ≤ u ∧ u < 0xdc00 then
      match r with
      | [] => none
      | w :: r =>
        if 0xdc00 ≤ w ∧ w < 0xe000 then (chars16 r).map (Char.ofNat (0x10000 + (u - 0xd800) * 0x400 + (w - 0xdc00)) :: ·) else none
    else if 0xdc00 ≤ u ∧ u < 0xe000 then none
    else (chars16 r).map (Char.ofNat u :: ·)

/-- `b.decode("utf-16-be")` or `b.decode("utf-16-le")` -/
def ofUtf16 (big : Bool) (b : Bytes) : Option String := (units16 big b).bind fun us => (chars16 us).map String.ofList

/-- Characters of four bytes each -/
def chars32 (big : Bool) : Bytes → Option (List Char)
  | [] => some []
  | a :: b :: c :: d :: r =>
    let n := if big then a.toNat * 2 ^ 24 + b.toNat * 2 ^ 16 + c.toNat * 256 + d.toNat
      else d.toNat * 2 ^ 24 + c.toNat * 2 ^ 16 + b.toNat * 256 + a.toNat
    if n.isValidChar then (chars32 big r).map (Char.ofNat n :: ·) else none
  | _ => none

/-- `b.decode("utf-32-be")` or `b.decode("utf-32-le")` -/
def ofUtf32 (big : Bool) (b : Bytes) : Option String := (chars32 big b).map String.ofList

/-- The codecs `detect_encoding` chooses from -/
inductive Encoding where
  | utf32 | utf16 | utf8sig | utf16be | utf32be | utf16le | utf32le | utf8
  deriving DecidableEq, Repr

/-- `b.startswith(p)` -/
def startsWith (b p : Bytes) : Bool := p.isPrefixOf b

/-- `json.detect_encoding(b)` -/
def detectEncoding (b : Bytes) : Encoding :=
  if startsWith b [0, 0, 0xfe, 0xff] ∨ startsWith b [0xff, 0xfe, 0, 0] then .utf32
  else if startsWith b [0xfe, 0xff] ∨ startsWith b [0xff, 0xfe] then .utf16
  else if startsWith b [0xef, 0xbb, 0xbf] then .utf8sig
  else
    match b with
    | x :: y :: z :: w :: _ =>
      if x = 0 then (if y ≠ 0 then .utf16be else .utf32be)
      else if y = 0 then (if z ≠ 0 ∨ w ≠ 0 then .utf16le else .utf32le)
      else .utf8
    | [x, y] => if x = 0 then .utf16be else if y = 0 then .utf16le else .utf8
    | _ => .utf8

/-- `b.decode(codec, "surrogatepass")`; `utf-32`, `utf-16` and `utf-8-sig` take the byte order mark off, and `detect_encoding`
chooses them only if there is one. -/
def decodeWith : Encoding → Bytes → Option String
  | .utf32, b => ofUtf32 (startsWith b [0, 0]) (b.drop 4)
  | .utf16, b => ofUtf16 (startsWith b [0xfe]) (b.drop 2)
  | .utf8sig, b => ofUtf8 (b.drop 3)
  | .utf16be, b => ofUtf16 true b
  | .utf32be, b => ofUtf32 true b
  | .utf16le, b => ofUtf16 false b
  | .utf32le, b => ofUtf32 false b
  | .utf8, b => ofUtf8 b

end Wamp
