import Verif.Model.Messages

/-! # Shared types — `wampproto/types.py` -/

namespace Wamp

/-- `SessionDetails` (`types.py:6-38`); `authid`/`authrole` may be `None`, as WELCOME may omit them. -/
structure SessionDetails where
  sessionId : PyInt
  realm : String
  authid : Option String := none
  authrole : Option String := none
  deriving DecidableEq, Repr

/-- `SessionDetails.__eq__` (`types.py:29-38`) between two `SessionDetails`. -/
def SessionDetails.eq (a b : SessionDetails) : Bool :=
  a.sessionId.val = b.sessionId.val && a.realm = b.realm && a.authid = b.authid && a.authrole = b.authrole

/-- `MessageWithRecipient` (`types.py:41-44`).  Session ids are represented by their numeric value. -/
structure MessageWithRecipient where
  message : Message
  recipient : Int
  deriving DecidableEq, Repr

/-- `Publication` (`types.py:47-51`) -/
structure Publication where
  event : Option Event := none
  recipients : List Int := []
  ack : Option MessageWithRecipient := none
  deriving DecidableEq, Repr

end Wamp
