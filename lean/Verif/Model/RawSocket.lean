import Verif.Model.Py

/-!
# RawSocket framing — `wampproto/transports/rawsocket.py`

Python ints are `Int`; `bytes` is `List UInt8`.
-/

namespace Wamp.RawSocket

/-- `MAGIC` (`rawsocket.py:3`) -/
def MAGIC : Int := 0x7F

/-- `SERIALIZER_TYPE_JSON` (`rawsocket.py:8`) -/
def SERIALIZER_TYPE_JSON : Int := 1
/-- `SERIALIZER_TYPE_MSGPACK` (`rawsocket.py:9`) -/
def SERIALIZER_TYPE_MSGPACK : Int := 2
/-- `SERIALIZER_TYPE_CBOR` (`rawsocket.py:10`) -/
def SERIALIZER_TYPE_CBOR : Int := 3

/-- `MSG_TYPE_WAMP` (`rawsocket.py:12`) -/
def MSG_TYPE_WAMP : Int := 0
/-- `MSG_TYPE_PING` (`rawsocket.py:13`) -/
def MSG_TYPE_PING : Int := 1
/-- `MSG_TYPE_PONG` (`rawsocket.py:14`) -/
def MSG_TYPE_PONG : Int := 2

/-- One element of `bytes([...])`: `ValueError` unless `0 <= x < 256`. -/
def toByte (x : Int) : Except Exc UInt8 :=
  if 0 ≤ x ∧ x < 256 then .ok (UInt8.ofNat x.toNat)
  else .error (.valueError "bytes must be in range(0, 256)")

/-- `Handshake` (`rawsocket.py:17-36`) -/
structure Handshake where
  protocol : Int
  maxMsgSize : Int
  deriving DecidableEq, Repr

/-- `MessageHeader` (`rawsocket.py:39-51`) -/
structure MessageHeader where
  kind : Int
  length : Int
  deriving DecidableEq, Repr

/-- `x & 0xFF` of a Python int (two's complement for negatives) is the remainder mod 256. -/
def andFF (x : Int) : Int := x % 256
/-- `x >> k` of a Python int is floor division by `2^k`. -/
def shr (x : Int) (k : Nat) : Int := x / 2 ^ k

/-- `int_to_bytes` (`rawsocket.py:96-103`) -/
def intToBytes (i : Int) : Except Exc (List UInt8) := do
  let a ← toByte (andFF (shr i 16))
  let b ← toByte (andFF (shr i 8))
  let c ← toByte (andFF i)
  return [a, b, c]

/-- The loop of `bytes_to_int` (`rawsocket.py:109-111`) over the reversed bytes, accumulator `n`, current `shift`. -/
def bytesToIntLoop : List UInt8 → Nat → Nat → Nat
  | [], n, _ => n
  | byte :: rest, n, shift => bytesToIntLoop rest (n ||| (byte.toNat <<< shift)) (shift + 8)

/-- `bytes_to_int` (`rawsocket.py:106-113`) -/
def bytesToInt (b : List UInt8) : Int := bytesToIntLoop b.reverse 0 0

/-- `MessageHeader.to_bytes` (`rawsocket.py:53-62`) -/
def MessageHeader.toBytes (h : MessageHeader) : Except Exc (List UInt8) := do
  let data ← intToBytes h.length
  match data with
  | [d0, d1, d2] => return [← toByte h.kind, d0, d1, d2]
  | _ => .error .indexError

/-- `MessageHeader.from_bytes` (`rawsocket.py:64-66`) -/
def MessageHeader.fromBytes (data : List UInt8) : Except Exc MessageHeader :=
  match data with
  | [] => .error .indexError
  | k :: rest => .ok ⟨k.toNat, bytesToInt rest⟩

/-- `int(math.log2(x))` for an int `x`: domain error for `x <= 0`, else the exponent of the largest power of two not
above `x`.  Simplification: the double-precision `log2` may round up just below `2^k` for `k ≥ 48`; every size
from `2^25` on makes the caller fail anyway, so the difference is not observable. -/
def intLog2 (x : Int) : Except Exc Int :=
  if x ≤ 0 then .error (.valueError "math domain error") else .ok (Nat.log2 x.toNat : Int)

/-- `send_handshake` (`rawsocket.py:69-80`).  `a << 4 | (p & 0xF)` has disjoint bits, so it is `a * 16 + p % 16`. -/
def sendHandshake (hs : Handshake) : Except Exc (List UInt8) := do
  let m ← toByte MAGIC
  let l ← intLog2 hs.maxMsgSize
  let b ← toByte ((l - 9) * 16 + hs.protocol % 16)
  return [m, b, 0, 0]

/-- `receive_handshake` (`rawsocket.py:83-93`) -/
def receiveHandshake (data : List UInt8) : Except Exc Handshake :=
  match data with
  | [d0, d1, d2, d3] =>
    if (d0.toNat : Int) ≠ MAGIC then .error (.valueError ("Expected MAGIC, got " ++ toString d0.toNat))
    else if d2 ≠ 0 ∧ d3 ≠ 0 then 
      .error (.valueError ("Expected 0x00 for third and fourth byte of handshake response, got " ++ toString d2.toNat
        ++ " and " ++ toString d3.toNat))
    else .ok ⟨(d1.toNat &&& 0x0F : Nat), (1 <<< ((d1.toNat >>> 4) + 9) : Nat)⟩
  | _ => .error (.valueError ("Expected 4 bytes for handshake response, got " ++ toString data.length))

end Wamp.RawSocket
