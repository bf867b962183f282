import Verif.Spec.Frames
import Verif.Spec.Formats

/-!
# A RawSocket connection

What programs do with `Handshake`, `MessageHeader` and a serializer at the two ends of a byte stream.  The speaker sends a handshake
that names its serializer, and then messages, pings and pongs.  The listener has sent a handshake of its own, which says how long the
messages it takes may be; it takes bytes as they come, in pieces of any size.
-/

namespace Wamp.Spec
open RawSocket

/-- The format a serializer type stands for -/
def formatOfType (t : Int) : Option Format :=
  if t = SERIALIZER_TYPE_JSON then some .json
  else if t = SERIALIZER_TYPE_MSGPACK then some .msgpack
  else if t = SERIALIZER_TYPE_CBOR then some .cbor
  else none

/-- The serializer type of a format -/
def Format.type : Format → Int
  | .json => SERIALIZER_TYPE_JSON
  | .msgpack => SERIALIZER_TYPE_MSGPACK
  | .cbor => SERIALIZER_TYPE_CBOR

/-- The serializer of a format on a stream of bytes; JSON text is encoded in UTF-8. -/
def Format.wire : Format → Codec Bytes
  | .json => Json.payloadCodec
  | .msgpack => MsgPack.codec
  | .cbor => Cbor.codec

/-- What goes over a connection -/
inductive Item where
  | message (m : Message)
  | ping (data : Bytes)
  | pong (data : Bytes)

/-- Put into a frame -/
def Item.frame (f : Format) : Item → Except Exc Frame
  | .message m => (f.wire.serialize m).map (⟨MSG_TYPE_WAMP, ·⟩)
  | .ping b => .ok ⟨MSG_TYPE_PING, b⟩
  | .pong b => .ok ⟨MSG_TYPE_PONG, b⟩

/-- Taken out of a frame, which must not be longer than the listener said -/
def itemOf (f : Format) (limit : Int) (x : Frame) : Except Exc Item :=
  if limit < x.payload.length then .error (.valueError "too long")
  else if x.kind = MSG_TYPE_WAMP then (f.wire.deserialize x.payload).map .message
  else if x.kind = MSG_TYPE_PING then .ok (.ping x.payload)
  else if x.kind = MSG_TYPE_PONG then .ok (.pong x.payload)
  else .error (.valueError "unknown kind")

/-- All bytes the speaker sends -/
def speak (f : Format) (limit : Int) (items : List Item) : Except Exc Bytes := do
  let h ← sendHandshake ⟨f.type, limit⟩
  let fs ← items.mapM (Item.frame f)
  let rest ← writeAll fs
  .ok (h ++ rest)

/-- The listener: the bytes it has not used yet, the format once it knows it, what it has heard -/
structure Listener where
  /-- The limit it has announced -/
  limit : Int
  buffer : Bytes := []
  format : Option Format := none
  heard : List Item := []

/-- Frames as long as whole ones are there, at most so many -/
def frames : Nat → Bytes → List Frame × Bytes
  | 0, bs => ([], bs)
  | n + 1, bs =>
    match readOne bs with
    | none => ([], bs)
    | some (x, rest) => (x :: (frames n rest).1, (frames n rest).2)

/-- The listener takes what is there after the handshake. -/
def Listener.take (l : Listener) (f : Format) (bs : Bytes) : Except Exc Listener := do
  let items ← (frames bs.length bs).1.mapM (itemOf f l.limit)
  .ok { l with buffer := (frames bs.length bs).2, format := some f, heard := l.heard ++ items }

/-- A piece of the stream arrives. -/
def Listener.hear (l : Listener) (piece : Bytes) : Except Exc Listener :=
  match l.format with
  | some f => l.take f (l.buffer ++ piece)
  | none =>
    if (l.buffer ++ piece).length < 4 then .ok { l with buffer := l.buffer ++ piece }
    else do
      let hs ← receiveHandshake ((l.buffer ++ piece).take 4)
      match formatOfType hs.protocol with
      | none => .error (.valueError "unknown serializer")
      | some f => l.take f ((l.buffer ++ piece).drop 4)

/-- What the receiver of an item is to see -/
def Item.arrived : Item → Item
  | .message m => .message (received m)
  | x => x

/-- The item can be sent: its data is no longer than `size`, and a message has valid fields that fit the format. -/
def Item.Sendable (f : Format) (size : Int) : Item → Prop
  | .message m => Valid m ∧ Fits f.limits (.list m.marshal) ∧
      ∀ b, f.wire.serialize m = .ok b → (b.length : Int) ≤ size ∧ b.length < 2 ^ 24
  | .ping b => (b.length : Int) ≤ size ∧ b.length < 2 ^ 24
  | .pong b => (b.length : Int) ≤ size ∧ b.length < 2 ^ 24

end Wamp.Spec
