import Verif.Model.Messages

/-!
# Serializers — `wampproto/serializers/{serializer,json,cbor,msgpack,payload}.py`

The external codecs (`json`, `cbor2`, `msgpack`) are parameters.
-/

namespace Wamp

/-- `bytes` -/
abbrev Bytes := List UInt8

/-- An external value codec: `dumps` / `loads` of `json`, `cbor2` or `msgpack`, producing `W` (`str` or `bytes`). -/
structure Codec (W : Type) where
  dumps : Value → Except Exc W
  loads : W → Except Exc Value

/-- `JSONSerializer.serialize` (`json.py:10-11`), `CBORSerializer.serialize` (`cbor.py:10-11`),
`MsgPackSerializer.serialize` (`msgpack.py:10-11`): the three differ only in the codec.
Simplification: a tuple or other sequence is not a `Value`; `marshal()` always returns a list. -/
def Codec.serialize {W : Type} (c : Codec W) (m : Message) : Except Exc W := c.dumps (.list m.marshal)

/-- `deserialize` of the same classes (`json.py:13-15`, `cbor.py:13-15`, `msgpack.py:13-15`). -/
def Codec.deserialize {W : Type} (c : Codec W) (data : W) : Except Exc Message := do
  let wampMessage ← c.loads data
  toMessage wampMessage

/-! ## `payload.py` -/

/-- `NONE_SERIALIZER_ID` (`serializer.py:3`) -/
def NONE_SERIALIZER_ID : Int := 0
/-- `JSON_SERIALIZER_ID` (`json.py:6`) -/
def JSON_SERIALIZER_ID : Int := 1
/-- `MSGPACK_SERIALIZER_ID` (`msgpack.py:6`) -/
def MSGPACK_SERIALIZER_ID : Int := 2
/-- `CBOR_SERIALIZER_ID` (`cbor.py:6`) -/
def CBOR_SERIALIZER_ID : Int := 3

/-- The three codecs as `payload.py` uses them, all over `bytes` (for JSON, `dumps` includes `.encode()` and `loads`
takes bytes; `payload.py:82,89`). -/
structure Codecs where
  json : Codec Bytes
  cbor : Codec Bytes
  msgpack : Codec Bytes

/-- `len(v)` (Python built-in).  Simplification: an `obj` has no length. -/
def pyLen : Value → Except Exc Nat
  | .str s => .ok s.length
  | .bytes b => .ok b.length
  | .list l => .ok l.length
  | .dict d => .ok d.length
  | _ => .error (.typeError "object has no len()")

/-- `d[k]` for an int literal `k` on a dict: the first key equal to it (`0 == 0.0 == False`). -/
def dictIndex (d : PyDict) (k : Int) : Except Exc Value :=
  match d with
  | [] => .error .keyError
  | (key, v) :: rest => if key.eqInt k then .ok v else dictIndex rest k

/-- `v[k]` for an int literal `k ≥ 0` (Python built-in). -/
def pyIndex (v : Value) (k : Nat) : Except Exc Value :=
  match v with
  | .list l => match l[k]? with
    | some x => .ok x
    | none => .error .indexError
  | .str s => match s.toList[k]? with
    | some c => .ok (.str (String.singleton c))
    | none => .error .indexError
  | .bytes b => match b[k]? with
    | some c => .ok (.int c.toNat)
    | none => .error .indexError
  | .dict d => dictIndex d k
  | _ => .error (.typeError "object is not subscriptable")

/-- `decode` (`payload.py:10-27`), on whatever the codec loaded. -/
def decodePayload (arr : Value) : Except Exc (Option (List Value) × Option PyDict) := do
  let n ← pyLen arr
  if n = 0 then return (none, none)
  if n > 2 then throw (.valueError "too many args to decode")
  let args ← pyIndex arr 0
  match args with
  | .list args =>
    if n = 2 then
      match ← pyIndex arr 1 with
      | .dict kwargs => return (some args, some kwargs)
      | _ => throw (.typeError "kwargs element is not dict")
    else return (some args, none)
  | _ => throw (.typeError "args element is not list")

/-- `prepare_for_encode` (`payload.py:30-40`); never `None`, so the `if data is None` tests of its callers
(`payload.py:45-46`, `62-63`, `79-80`) never fire. -/
def prepareForEncode (args : Option (List Value)) (kwargs : Option PyDict) : List Value :=
  let data : List Value := []
  let data := match args with
    | some a => data ++ [.list a]
    | none => data
  match kwargs with
  | some k =>
    let data := match args with
      | none => data ++ [.list []]
      | some _ => data
    data ++ [.dict k]
  | none => data

/-- `cbor_encode_payload`, `msgpack_encode_payload`, `json_encode_payload` (`payload.py:43-48`, `60-65`, `77-82`). -/
def encodePayload (c : Codec Bytes) (args : Option (List Value)) (kwargs : Option PyDict) :
    Except Exc Bytes := c.dumps (.list (prepareForEncode args kwargs))

/-- `cbor_decode_payload`, `msgpack_decode_payload`, `json_decode_payload` (`payload.py:51-57`, `68-74`, `85-91`). -/
def decodePayloadBytes (c : Codec Bytes) (b : Bytes) : Except Exc (Option (List Value) × Option PyDict) := do
  if b.length = 0 then return (none, none)
  decodePayload (← c.loads b)

/-- `deserialize_payload` (`payload.py:94-105`) -/
def deserializePayload (cs : Codecs) (serializerId : Int) (payload : Bytes) :
    Except Exc (Option (List Value) × Option PyDict) :=
  if serializerId = NONE_SERIALIZER_ID then .ok (some [.bytes payload], some [])
  else if serializerId = JSON_SERIALIZER_ID then decodePayloadBytes cs.json payload
  else if serializerId = CBOR_SERIALIZER_ID then decodePayloadBytes cs.cbor payload
  else if serializerId = MSGPACK_SERIALIZER_ID then decodePayloadBytes cs.msgpack payload
  else .error (.valueError s!"serializer {serializerId} not recognized")

/-- `serialize_payload` (`payload.py:108-130`).  Simplification: `bytearray` arguments are not modelled. -/
def serializePayload (cs : Codecs) (serializerId : Int) (args : Option (List Value)) (kwargs : Option PyDict) :
    Except Exc (Option Bytes) :=
  if serializerId = NONE_SERIALIZER_ID then
    match args, kwargs with
    | none, none => .ok none
    | none, some _ => .error (.typeError "object of type 'NoneType' has no len()")
    | some args, kwargs =>
      if args.length ≠ 1 ∨ (kwargs.getD []) ≠ [] then
        .error (.valueError s!"serializer {serializerId} requires exactly 1 arg")
      else
        match args with
        | .bytes b :: _ => .ok (some b)
        | _ => .error (.typeError s!"serializer {serializerId} requires bytes")
  else if serializerId = JSON_SERIALIZER_ID then (encodePayload cs.json args kwargs).map some
  else if serializerId = CBOR_SERIALIZER_ID then (encodePayload cs.cbor args kwargs).map some
  else if serializerId = MSGPACK_SERIALIZER_ID then (encodePayload cs.msgpack args kwargs).map some
  else .error (.valueError s!"serializer {serializerId} not recognized")

end Wamp
