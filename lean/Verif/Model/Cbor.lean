import Verif.Model.Bytes

/-!
# The codec of `CBORSerializer` — `cbor2.dumps` / `cbor2.loads`

`serializers/cbor.py:11,14` and `payload.py:48,55` call the external `cbor2` package with its default options (not canonical,
no value sharing).  `loads` reads one item and ignores what follows.

Simplifications: tags other than big integers, simple values of two bytes, unusual NaNs of 16 or 32 bits, and map keys other than
strings, bytes and integers are not modelled (`loads` raises `external`); `dumps` raises `external` on every `obj`; nor are the limits
on nesting depth modelled.
-/

namespace Wamp.Cbor
open PyFloat (posInf negInf nan widen)

/-- The head of an item: major type and argument (`encode_length`) -/
def head (major n : Nat) : Bytes :=
  if n < 24 then be 1 (major * 32 + n)
  else if n < 2 ^ 8 then be 1 (major * 32 + 24) ++ be 1 n
  else if n < 2 ^ 16 then be 1 (major * 32 + 25) ++ be 2 n
  else if n < 2 ^ 32 then be 1 (major * 32 + 26) ++ be 4 n
  else be 1 (major * 32 + 27) ++ be 8 n

/-- The shortest big-endian form (`encode_int`: `value.to_bytes((value.bit_length() + 7) // 8, "big")`) -/
def beMin (n : Nat) : Bytes :=
  if _h : n = 0 then [] else beMin (n / 256) ++ [UInt8.ofNat n]
termination_by n
decreasing_by omega

/-- `encode_int` of the argument of major type 0 (`tag` 2) or 1 (`tag` 3) -/
def magnitude (major tag n : Nat) : Bytes :=
  if n < 2 ^ 64 then head major n else head 6 tag ++ (head 2 (beMin n).length ++ beMin n)

/-- `encode_int` -/
def integer : Int → Bytes
  | .ofNat n => magnitude 0 2 n
  | .negSucc n => magnitude 1 3 n

/-- `encode_float` -/
def float (f : PyFloat) : Bytes :=
  if f.expo = 2047 ∧ f.frac ≠ 0 then [0xf9, 0x7e, 0x00]
  else if f = posInf then [0xf9, 0x7c, 0x00]
  else if f = negInf then [0xf9, 0xfc, 0x00]
  else 0xfb :: be 8 f.bits.toNat

mutual
/-- The bytes of a value that `encodable` accepts -/
def encode : Value → Bytes
  | .none => [0xf6]
  | .bool false => [0xf4]
  | .bool true => [0xf5]
  | .int n => integer n
  | .float f => float f
  | .str s => head 3 (utf8 s).length ++ utf8 s
  | .bytes b => head 2 b.length ++ b
  | .list l => head 4 l.length ++ encodeList l
  | .dict d => head 5 d.length ++ encodeDict d
  | .obj .. => []
/-- Element after element -/
def encodeList : List Value → Bytes
  | [] => []
  | v :: l => encode v ++ encodeList l
/-- Key, value, key, value ... -/
def encodeDict : List (Value × Value) → Bytes
  | [] => []
  | (k, v) :: d => encode k ++ (encode v ++ encodeDict d)
end

mutual
/-- Whether `cbor2.dumps` has bytes for the value, as far as modelled -/
def encodable : Value → Except Exc Unit
  | .list l => encodableList l
  | .dict d => encodableDict d
  | .obj .. => .error (.external "cbor2")
  | _ => .ok ()
/-- Every element -/
def encodableList : List Value → Except Exc Unit
  | [] => .ok ()
  | v :: l => do encodable v; encodableList l
/-- Every key and value -/
def encodableDict : List (Value × Value) → Except Exc Unit
  | [] => .ok ()
  | (k, v) :: d => do encodable k; encodable v; encodableDict d
end

/-- `cbor2.dumps(v)` (`cbor.py:11`) -/
def dumps (v : Value) : Except Exc Bytes := do
  encodable v
  .ok (encode v)

/-- `CBORDecodeEOF` -/
def eof : Exc := .external "CBORDecodeEOF"

/-- `_decode_length`: the argument of a head -/
def argument (info : Nat) (r : Bytes) : Except Exc (Nat × Bytes) :=
  if info < 24 then .ok (info, r)
  else if info = 24 then takeNat eof 1 r
  else if info = 25 then takeNat eof 2 r
  else if info = 26 then takeNat eof 4 r
  else if info = 27 then takeNat eof 8 r
  else .error (.external "cbor2")

/-- `decode_string` -/
def decodeStr (n : Nat) (r : Bytes) : Except Exc (Value × Bytes) := do
  let (b, r) ← takeBytes eof n r
  match ofUtf8 b with
  | some s => .ok (.str s, r)
  | none => .error (.external "CBORDecodeValueError")

/-- `decode_bytestring` -/
def decodeBin (n : Nat) (r : Bytes) : Except Exc (Value × Bytes) := do
  let (b, r) ← takeBytes eof n r
  .ok (.bytes b, r)

/-- A map key, as far as modelled -/
def decodeKey (item : Bytes → Except Exc (Value × Bytes)) (r : Bytes) : Except Exc (Value × Bytes) := do
  let (k, r) ← item r
  match k with
  | .str _ | .bytes _ | .int _ => .ok (k, r)
  | _ => .error (.external "cbor2")

/-- `decode_array` -/
def decodeArray (item : Bytes → Except Exc (Value × Bytes)) (n : Nat) (r : Bytes) : Except Exc (Value × Bytes) := do
  let (l, r) ← readMany item n r
  .ok (.list l, r)

/-- `decode_map` -/
def decodeMap (item : Bytes → Except Exc (Value × Bytes)) (n : Nat) (r : Bytes) : Except Exc (Value × Bytes) := do
  let (l, r) ← readPairs (decodeKey item) item n r
  .ok (.dict (PyDict.ofPairs l), r)

/-- `decode_semantic`: `decode_positive_bignum`, `decode_negative_bignum` -/
def decodeTag (item : Bytes → Except Exc (Value × Bytes)) (tag : Nat) (r : Bytes) : Except Exc (Value × Bytes) :=
  if tag = 2 then do
    match ← item r with
    | (.bytes b, r) => .ok (.int (ofBe b), r)
    | _ => .error (.external "CBORDecodeValueError")
  else if tag = 3 then do
    match ← item r with
    | (.bytes b, r) => .ok (.int (-(ofBe b : Int) - 1), r)
    | _ => .error (.external "CBORDecodeValueError")
  else .error (.external "cbor2")

/-- `decode_float16`, `decode_float32` -/
def decodeShort (eb fb n : Nat) (r : Bytes) : Except Exc (Value × Bytes) :=
  match widen eb fb n with
  | some f => .ok (.float f, r)
  | none => .error (.external "cbor2")

/-- `break_marker`, which also stands for itself where no item of indefinite length is open -/
def breakMarker : Value := .obj "break_marker_type" true 0

/-- `undefined` -/
def undefined : Value := .obj "undefined_type" false 0

/-- `CBORSimpleValue(n)` -/
def simpleValue (n : Nat) : Value := .obj "CBORSimpleValue" true n

/-- `decode_special` -/
def decodeSpecial (info : Nat) (r : Bytes) : Except Exc (Value × Bytes) :=
  if info < 20 then .ok (simpleValue info, r)
  else if info = 20 then .ok (.bool false, r)
  else if info = 21 then .ok (.bool true, r)
  else if info = 22 then .ok (.none, r)
  else if info = 23 then .ok (undefined, r)
  else if info = 25 then do
    let (n, r) ← takeNat eof 2 r
    decodeShort 5 10 n r
  else if info = 26 then do
    let (n, r) ← takeNat eof 4 r
    decodeShort 8 23 n r
  else if info = 27 then do
    let (n, r) ← takeNat eof 8 r
    .ok (.float ⟨BitVec.ofNat 64 n⟩, r)
  else if info = 31 then .ok (breakMarker, r)
  else .error (.external "cbor2")

/-- The pieces of a string of indefinite length, each of the same major type (`decode_bytestring`, `decode_string`).
The first argument is at least the number of pieces. -/
def decodePieces (major : Nat) : Nat → Bytes → Except Exc (List Bytes × Bytes)
  | 0, _ => .error .recursionError
  | _ + 1, [] => .error eof
  | n + 1, b :: r =>
    if b.toNat = 255 then .ok ([], r)
    else if b.toNat / 32 = major then do
      let (k, r) ← argument (b.toNat % 32) r
      let (x, r) ← takeBytes eof k r
      let (l, r) ← decodePieces major n r
      .ok (x :: l, r)
    else .error (.external "CBORDecodeValueError")

/-- Items up to the break (`decode_array`).  The first argument is at least the number of items. -/
def decodeItems (item : Bytes → Except Exc (Value × Bytes)) : Nat → Bytes → Except Exc (List Value × Bytes)
  | 0, _ => .error .recursionError
  | _ + 1, [] => .error eof
  | n + 1, b :: r =>
    if b.toNat = 255 then .ok ([], r)
    else do
      let (v, r) ← item (b :: r)
      let (l, r) ← decodeItems item n r
      .ok (v :: l, r)

/-- Pairs up to a break in the place of a key (`decode_map`) -/
def decodePairs (item : Bytes → Except Exc (Value × Bytes)) : Nat → Bytes → Except Exc (List (Value × Value) × Bytes)
  | 0, _ => .error .recursionError
  | _ + 1, [] => .error eof
  | n + 1, b :: r =>
    if b.toNat = 255 then .ok ([], r)
    else do
      let (k, r) ← decodeKey item (b :: r)
      let (v, r) ← item r
      let (l, r) ← decodePairs item n r
      .ok ((k, v) :: l, r)

/-- An item of indefinite length (`decode_bytestring`, `decode_string`, `decode_array`, `decode_map`; the others do not allow it) -/
def decodeOpen (item : Bytes → Except Exc (Value × Bytes)) (major : Nat) (r : Bytes) : Except Exc (Value × Bytes) :=
  if major = 2 then do
    let (l, r) ← decodePieces 2 (r.length + 1) r
    .ok (.bytes l.flatten, r)
  else if major = 3 then do
    let (l, r) ← decodePieces 3 (r.length + 1) r
    match l.mapM ofUtf8 with
    | some ss => .ok (.str (String.join ss), r)
    | none => .error (.external "CBORDecodeValueError")
  else if major = 4 then do
    let (l, r) ← decodeItems item (r.length + 1) r
    .ok (.list l, r)
  else if major = 5 then do
    let (l, r) ← decodePairs item (r.length + 1) r
    .ok (.dict (PyDict.ofPairs l), r)
  else .error (.external "CBORDecodeValueError")

/-- What follows a head of the major type with the argument `n`, given how to read an item within -/
def decodeBody (item : Bytes → Except Exc (Value × Bytes)) (major n : Nat) (r : Bytes) : Except Exc (Value × Bytes) :=
  if major = 0 then .ok (.int n, r)
  else if major = 1 then .ok (.int (-(n : Int) - 1), r)
  else if major = 2 then decodeBin n r
  else if major = 3 then decodeStr n r
  else if major = 4 then decodeArray item n r
  else if major = 5 then decodeMap item n r
  else decodeTag item n r

/-- What follows the first byte `h` (`CBORDecoder._decode`) -/
def decodeRest (item : Bytes → Except Exc (Value × Bytes)) (h : Nat) (r : Bytes) : Except Exc (Value × Bytes) :=
  if h / 32 = 7 then decodeSpecial (h % 32) r
  else if h % 32 = 31 then decodeOpen item (h / 32) r
  else do
    let (n, r) ← argument (h % 32) r
    decodeBody item (h / 32) n r

/-- One item -/
def decode : Nat → Bytes → Except Exc (Value × Bytes)
  | 0, _ => .error .recursionError
  | _ + 1, [] => .error eof
  | f + 1, b :: r => decodeRest (decode f) b.toNat r

/-- `cbor2.loads(b)` (`cbor.py:14`): what follows the item is ignored. -/
def loads (b : Bytes) : Except Exc Value := do
  let (v, _) ← decode (b.length + 1) b
  .ok v

/-- The codec -/
def codec : Codec Bytes := ⟨dumps, loads⟩

end Wamp.Cbor
