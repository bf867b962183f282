import Verif.Model.Bytes

/-!
# The codec of `MsgPackSerializer` — `msgpack.dumps` / `msgpack.loads`

`serializers/msgpack.py:11,14` and `payload.py:65,72` call the external `msgpack` package with its default options: strings
as `str`, bytes as `bin` (`use_bin_type`), `raw=False`, map keys only `str` or `bytes` (`strict_map_key`), one item with
nothing after it.  This file models the format.

Simplifications: extension types, timestamps and unusual NaNs of 32 bits are not modelled (`loads` raises `external`); nor are the
limits on nesting depth.
-/

namespace Wamp.MsgPack

/-- An integer in its shortest form (`_packer.pyx`, `_pack`) -/
def packInt (n : Int) : Bytes :=
  if n < -32 then
    if n < -2 ^ 31 then 0xd3 :: be 8 (n + 2 ^ 64).toNat
    else if n < -2 ^ 15 then 0xd2 :: be 4 (n + 2 ^ 32).toNat
    else if n < -2 ^ 7 then 0xd1 :: be 2 (n + 2 ^ 16).toNat
    else 0xd0 :: be 1 (n + 2 ^ 8).toNat
  else if n < 0 then be 1 (n + 2 ^ 8).toNat
  else if n < 128 then be 1 n.toNat
  else if n < 2 ^ 8 then 0xcc :: be 1 n.toNat
  else if n < 2 ^ 16 then 0xcd :: be 2 n.toNat
  else if n < 2 ^ 32 then 0xce :: be 4 n.toNat
  else 0xcf :: be 8 n.toNat

/-- The head of a string -/
def strHead (n : Nat) : Bytes :=
  if n < 32 then be 1 (0xa0 + n)
  else if n < 2 ^ 8 then 0xd9 :: be 1 n
  else if n < 2 ^ 16 then 0xda :: be 2 n
  else 0xdb :: be 4 n

/-- The head of binary data -/
def binHead (n : Nat) : Bytes :=
  if n < 2 ^ 8 then 0xc4 :: be 1 n
  else if n < 2 ^ 16 then 0xc5 :: be 2 n
  else 0xc6 :: be 4 n

/-- The head of a list -/
def arrayHead (n : Nat) : Bytes :=
  if n < 16 then be 1 (0x90 + n)
  else if n < 2 ^ 16 then 0xdc :: be 2 n
  else 0xdd :: be 4 n

/-- The head of a dict -/
def mapHead (n : Nat) : Bytes :=
  if n < 16 then be 1 (0x80 + n)
  else if n < 2 ^ 16 then 0xde :: be 2 n
  else 0xdf :: be 4 n

mutual
/-- The bytes of a value that `packable` accepts -/
def pack : Value → Bytes
  | .none => [0xc0]
  | .bool false => [0xc2]
  | .bool true => [0xc3]
  | .int n => packInt n
  | .float f => 0xcb :: be 8 f.bits.toNat
  | .str s => strHead (utf8 s).length ++ utf8 s
  | .bytes b => binHead b.length ++ b
  | .list l => arrayHead l.length ++ packList l
  | .dict d => mapHead d.length ++ packDict d
  | .obj .. => []
/-- Element after element -/
def packList : List Value → Bytes
  | [] => []
  | v :: l => pack v ++ packList l
/-- Key, value, key, value ... -/
def packDict : List (Value × Value) → Bytes
  | [] => []
  | (k, v) :: d => pack k ++ (pack v ++ packDict d)
end

mutual
/-- Whether `msgpack.dumps` has bytes for the value -/
def packable : Value → Except Exc Unit
  | .none | .bool _ | .float _ => .ok ()
  | .int n => if -2 ^ 63 ≤ n ∧ n < 2 ^ 64 then .ok () else .error (.external "OverflowError")
  | .str s => if (utf8 s).length < 2 ^ 32 then .ok () else .error (.valueError "str is too large")
  | .bytes b => if b.length < 2 ^ 32 then .ok () else .error (.valueError "bytes is too large")
  | .list l => if l.length < 2 ^ 32 then packableList l else .error (.valueError "list is too large")
  | .dict d => if d.length < 2 ^ 32 then packableDict d else .error (.valueError "dict is too large")
  | .obj ty _ _ => .error (.typeError s!"can not serialize '{ty}' object")
/-- Every element -/
def packableList : List Value → Except Exc Unit
  | [] => .ok ()
  | v :: l => do packable v; packableList l
/-- Every key and value -/
def packableDict : List (Value × Value) → Except Exc Unit
  | [] => .ok ()
  | (k, v) :: d => do packable k; packable v; packableDict d
end

/-- `msgpack.dumps(v)` (`msgpack.py:11`) -/
def dumps (v : Value) : Except Exc Bytes := do
  packable v
  .ok (pack v)

/-- "Unpack failed: incomplete input" -/
def incomplete : Exc := .valueError "Unpack failed: incomplete input"

/-- A signed number of `k` bytes -/
def signed (k n : Nat) : Int := if n < 256 ^ k / 2 then n else (n : Int) - (256 ^ k : Nat)

/-- `n` bytes of UTF-8 -/
def unpackStr (n : Nat) (r : Bytes) : Except Exc (Value × Bytes) := do
  let (b, r) ← takeBytes incomplete n r
  match ofUtf8 b with
  | some s => .ok (.str s, r)
  | none => .error (.valueError "utf-8")

/-- `n` bytes -/
def unpackBin (n : Nat) (r : Bytes) : Except Exc (Value × Bytes) := do
  let (b, r) ← takeBytes incomplete n r
  .ok (.bytes b, r)

/-- A map key: only `str` and `bytes` are allowed. -/
def unpackKey (item : Bytes → Except Exc (Value × Bytes)) (r : Bytes) : Except Exc (Value × Bytes) := do
  let (k, r) ← item r
  match k with
  | .str _ | .bytes _ => .ok (k, r)
  | _ => .error (.valueError s!"{k.typeName} is not allowed for map key when strict_map_key=True")

/-- `n` elements -/
def unpackArray (item : Bytes → Except Exc (Value × Bytes)) (n : Nat) (r : Bytes) : Except Exc (Value × Bytes) := do
  let (l, r) ← readMany item n r
  .ok (.list l, r)

/-- `n` pairs -/
def unpackMap (item : Bytes → Except Exc (Value × Bytes)) (n : Nat) (r : Bytes) : Except Exc (Value × Bytes) := do
  let (l, r) ← readPairs (unpackKey item) item n r
  .ok (.dict (PyDict.ofPairs l), r)

/-- A number of `k` bytes, and what to do with it -/
def withNum (k : Nat) (use : Nat → Bytes → Except Exc (Value × Bytes)) (r : Bytes) : Except Exc (Value × Bytes) := do
  let (n, r) ← takeNat incomplete k r
  use n r

/-- A 32-bit float (`unpack_callback_float`) -/
def unpackFloat (n : Nat) (r : Bytes) : Except Exc (Value × Bytes) :=
  match PyFloat.widen 8 23 n with
  | some f => .ok (.float f, r)
  | none => .error (.external "msgpack")

/-- What follows the first byte `h`, given how to read an item within (`unpack_template.h`, `unpack_execute`) -/
def unpackRest (item : Bytes → Except Exc (Value × Bytes)) (h : Nat) (r : Bytes) : Except Exc (Value × Bytes) :=
  if h < 0x80 then .ok (.int h, r)
  else if h < 0x90 then unpackMap item (h - 0x80) r
  else if h < 0xa0 then unpackArray item (h - 0x90) r
  else if h < 0xc0 then unpackStr (h - 0xa0) r
  else if h = 0xc0 then .ok (.none, r)
  else if h = 0xc2 then .ok (.bool false, r)
  else if h = 0xc3 then .ok (.bool true, r)
  else if h = 0xc4 then withNum 1 unpackBin r
  else if h = 0xc5 then withNum 2 unpackBin r
  else if h = 0xc6 then withNum 4 unpackBin r
  else if h = 0xca then withNum 4 unpackFloat r
  else if h = 0xcb then withNum 8 (fun n r => .ok (.float ⟨BitVec.ofNat 64 n⟩, r)) r
  else if h = 0xcc then withNum 1 (fun n r => .ok (.int n, r)) r
  else if h = 0xcd then withNum 2 (fun n r => .ok (.int n, r)) r
  else if h = 0xce then withNum 4 (fun n r => .ok (.int n, r)) r
  else if h = 0xcf then withNum 8 (fun n r => .ok (.int n, r)) r
  else if h = 0xd0 then withNum 1 (fun n r => .ok (.int (signed 1 n), r)) r
  else if h = 0xd1 then withNum 2 (fun n r => .ok (.int (signed 2 n), r)) r
  else if h = 0xd2 then withNum 4 (fun n r => .ok (.int (signed 4 n), r)) r
  else if h = 0xd3 then withNum 8 (fun n r => .ok (.int (signed 8 n), r)) r
  else if h = 0xd9 then withNum 1 unpackStr r
  else if h = 0xda then withNum 2 unpackStr r
  else if h = 0xdb then withNum 4 unpackStr r
  else if h = 0xdc then withNum 2 (unpackArray item) r
  else if h = 0xdd then withNum 4 (unpackArray item) r
  else if h = 0xde then withNum 2 (unpackMap item) r
  else if h = 0xdf then withNum 4 (unpackMap item) r
  else if 0xe0 ≤ h then .ok (.int ((h : Int) - 256), r)
  else if h = 0xc1 then .error (.valueError "FormatError")
  else .error (.external "msgpack")

/-- One item -/
def unpack : Nat → Bytes → Except Exc (Value × Bytes)
  | 0, _ => .error .recursionError
  | _ + 1, [] => .error incomplete
  | f + 1, b :: r => unpackRest (unpack f) b.toNat r

/-- `msgpack.loads(b)` (`msgpack.py:14`) -/
def loads (b : Bytes) : Except Exc Value := do
  let (v, rest) ← unpack (b.length + 1) b
  match rest with
  | [] => .ok v
  | _ => .error (.valueError "unpack(b) received extra data.")

/-- The codec -/
def codec : Codec Bytes := ⟨dumps, loads⟩

end Wamp.MsgPack
