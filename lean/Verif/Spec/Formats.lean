import Verif.Model.Json
import Verif.Model.MsgPack
import Verif.Model.Cbor
import Verif.Spec.ByteNet

/-!
# Which values the three formats can carry

`Fits L v`: `v` consists of `None`, booleans, strings, and integers, floats, bytes, lists and dicts within the limits `L`;
the keys of dicts are strings, no two alike.
-/

namespace Wamp.Spec

/-- What a format can carry -/
structure Limits where
  /-- Integers -/
  int : Int → Prop
  /-- Floats -/
  float : PyFloat → Prop
  /-- Whether `bytes` are allowed -/
  bytes : Prop
  /-- Sizes of strings (in UTF-8), bytes, lists and dicts -/
  size : Nat → Prop

mutual
/-- The value keeps to the limits. -/
def Fits (L : Limits) : Value → Prop
  | .none => True
  | .bool _ => True
  | .int n => L.int n
  | .float f => L.float f
  | .str s => L.size s.utf8ByteSize
  | .bytes b => L.bytes ∧ L.size b.length
  | .list l => L.size l.length ∧ FitsList L l
  | .dict d => L.size d.length ∧ (d.map (·.1)).Nodup ∧ FitsDict L d
  | .obj .. => False
/-- Every element does. -/
def FitsList (L : Limits) : List Value → Prop
  | [] => True
  | v :: l => Fits L v ∧ FitsList L l
/-- Every key is a string, and every key and value does. -/
def FitsDict (L : Limits) : List (Value × Value) → Prop
  | [] => True
  | (k, v) :: d => (∃ s : String, k = .str s ∧ L.size s.utf8ByteSize) ∧ Fits L v ∧ FitsDict L d
end

/-- A float that is not a NaN, or is the usual NaN -/
def PlainFloat (f : PyFloat) : Prop := f.isNaN = true → f = ⟨0x7ff8000000000000#64⟩

/-- JSON: integers, strings and containers of any size; floats but for unusual NaNs; no bytes -/
def jsonLimits : Limits := ⟨fun _ => True, PlainFloat, False, fun _ => True⟩

/-- MessagePack: integers of 64 bits, signed or unsigned; sizes below 2^32 -/
def msgpackLimits : Limits := ⟨fun n => -2 ^ 63 ≤ n ∧ n < 2 ^ 64, fun _ => True, True, fun n => n < 2 ^ 32⟩

/-- CBOR: integers of up to 2^63 bits; floats but for unusual NaNs; sizes below 2^64 -/
def cborLimits : Limits := ⟨fun n => n.natAbs.log2 < 2 ^ 63, PlainFloat, True, fun n => n < 2 ^ 64⟩

/-- What all three can carry -/
def commonLimits : Limits := ⟨fun n => -2 ^ 63 ≤ n ∧ n < 2 ^ 64, PlainFloat, False, fun n => n < 2 ^ 32⟩

/-- The format of a client -/
inductive Format where
  | json
  | msgpack
  | cbor
  deriving DecidableEq, Repr

/-- The codec of a format, over data that is text or bytes.  Handing bytes to `JSONSerializer`, or text to the others, is
not modelled (each client's channel carries what its serializer wrote). -/
def Format.codec : Format → Codec (String ⊕ Bytes)
  | .json => ⟨fun v => (Json.dumps v).map .inl, fun | .inl s => Json.loads s | .inr _ => .error (.external "bytes")⟩
  | .msgpack => ⟨fun v => (MsgPack.dumps v).map .inr, fun | .inr b => MsgPack.loads b | .inl _ => .error (.external "str")⟩
  | .cbor => ⟨fun v => (Cbor.dumps v).map .inr, fun | .inr b => Cbor.loads b | .inl _ => .error (.external "str")⟩

/-- The limits of a format -/
def Format.limits : Format → Limits
  | .json => jsonLimits
  | .msgpack => msgpackLimits
  | .cbor => cborLimits

mutual
/-- The keys of dicts are strings, no two alike; no unusual NaNs, unless the format is MessagePack; no objects of other types if
the format is CBOR; sizes are such that computers have. -/
def Keyed (f : Format) : Value → Prop
  | .none => True
  | .bool _ => True
  | .int n => n.natAbs.log2 < 2 ^ 63
  | .float x => f ≠ .msgpack → PlainFloat x
  | .str s => s.utf8ByteSize < 2 ^ 64
  | .bytes b => b.length < 2 ^ 64
  | .list l => l.length < 2 ^ 64 ∧ KeyedList f l
  | .dict d => d.length < 2 ^ 64 ∧ (d.map (·.1)).Nodup ∧ KeyedDict f d
  | .obj .. => f ≠ .cbor
/-- Every element -/
def KeyedList (f : Format) : List Value → Prop
  | [] => True
  | v :: l => Keyed f v ∧ KeyedList f l
/-- Every key and value -/
def KeyedDict (f : Format) : List (Value × Value) → Prop
  | [] => True
  | (k, v) :: d => (∃ s : String, k = .str s ∧ s.utf8ByteSize < 2 ^ 64) ∧ Keyed f v ∧ KeyedDict f d
end

/-- The first data is a part of the second: its beginning, and not all of it. -/
def PartOf : String ⊕ Bytes → String ⊕ Bytes → Prop
  | .inl p, .inl s => ∃ x, x ≠ "" ∧ s = p ++ x
  | .inr p, .inr b => ∃ x, x ≠ [] ∧ b = p ++ x
  | _, _ => False

/-- The first data, and after it the second -/
def glue : String ⊕ Bytes → String ⊕ Bytes → String ⊕ Bytes
  | .inl p, .inl s => .inl (p ++ s)
  | .inr p, .inr b => .inr (p ++ b)
  | w, _ => w

/-- The three codecs as `payload.py` uses them -/
def payloadCodecs : Codecs := ⟨Json.payloadCodec, Cbor.codec, MsgPack.codec⟩

/-- The format with the serializer id -/
def formatOf (id : Int) : Option Format :=
  if id = 1 then some .json else if id = 2 then some .msgpack else if id = 3 then some .cbor else none

end Wamp.Spec
