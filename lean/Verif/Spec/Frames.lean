import Verif.Model.RawSocket

/-!
# A RawSocket stream

What a program does with `MessageHeader` to send messages over a byte stream: for each message it writes the header and then
the payload.  To read, it takes four bytes, parses the header, and takes as many bytes as the header says.
-/

namespace Wamp.RawSocket

/-- A message on the stream: its kind and its payload. -/
structure Frame where
  kind : Int
  payload : List UInt8
  deriving DecidableEq, Repr

/-- What can be put on the stream: the kind is a byte, the length fits into three bytes. -/
def Frame.Fits (f : Frame) : Prop := (0 ≤ f.kind ∧ f.kind < 256) ∧ f.payload.length < 2 ^ 24

/-- Write messages one after the other. -/
def writeAll : List Frame → Except Exc (List UInt8)
  | [] => .ok []
  | f :: fs => do
    let h ← (MessageHeader.mk f.kind f.payload.length).toBytes
    let rest ← writeAll fs
    return h ++ f.payload ++ rest

/-- Read one message, if all of it is there: the message and what follows. -/
def readOne (bs : List UInt8) : Option (Frame × List UInt8) :=
  if bs.length < 4 then none
  else match MessageHeader.fromBytes (bs.take 4) with
    | .error _ => none
    | .ok h =>
      if ((bs.drop 4).length : Int) < h.length then none
      else some (⟨h.kind, (bs.drop 4).take h.length.toNat⟩, (bs.drop 4).drop h.length.toNat)

/-- Reading as long as whole messages are there gives these messages and leaves these bytes. -/
inductive Reads : List UInt8 → List Frame → List UInt8 → Prop
  | stop {bs} : readOne bs = none → Reads bs [] bs
  | more {bs f rest fs left} : readOne bs = some (f, rest) → Reads rest fs left → Reads bs (f :: fs) left

end Wamp.RawSocket
