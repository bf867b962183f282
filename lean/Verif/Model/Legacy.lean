import Verif.Model.Py

/-!
# Helpers no message class calls, texts of errors — `wampproto/messages/util.py:29-83`, `wampproto/exception.py`,
`wampproto/messages/error.py:165-174`

The `validate_*_or_raise` functions are public and tested, but no message uses them.  `str(x)` of a value inside a text is
a parameter `str`.
-/

namespace Wamp.Legacy

/-- The exceptions of `messages/exceptions.py:10-23` these helpers raise, with their text. -/
inductive Err where
  | protocol (text : String)
  | realm (text : String)
  | details (text : String)
  | uri (text : String)
  deriving DecidableEq, Repr

/-- `validate_realm_or_raise` (`util.py:29-36`) -/
def validateRealm (realm : Value) (msg : String) : Except Err Value :=
  match realm with
  | .none => .error (.realm ("realm cannot be null for " ++ msg))
  | .str s => .ok (.str s)
  | _ => .error (.realm ("realm must be of type string for " ++ msg))

/-- `validate_uri_or_raise` (`util.py:39-46`) -/
def validateUri (uri : Value) (msg : String) : Except Err Value :=
  match uri with
  | .none => .error (.uri ("uri cannot be null for " ++ msg))
  | .str s => .ok (.str s)
  | _ => .error (.uri ("uri must be of type string for " ++ msg))

/-- `validate_procedure_or_raise` (`util.py:49-56`) -/
def validateProcedure (procedure : Value) (msg : String) : Except Err Value :=
  match procedure with
  | .none => .error (.uri ("procedure cannot be null for " ++ msg))
  | .str s => .ok (.str s)
  | _ => .error (.uri ("procedure must be of type string for " ++ msg))

/-- The loop of `validate_details_or_raise` (`util.py:65-67`): the first key that is not a string. -/
def badKey : PyDict → Option Value
  | [] => none
  | (k, _) :: rest => if k.asStr?.isSome then badKey rest else some k

/-- `validate_details_or_raise` (`util.py:59-69`) -/
def validateDetails (str : Value → String) (details : Value) (msg : String) (field : Option String := none) : Except Err Value :=
  match details with
  | .dict d =>
    match badKey d with
    | some k => .error (.details ("invalid type for key '" ++ str k ++ "' in extra details for " ++ msg))
    | none => .ok (.dict d)
  | _ => .error (.details (field.getD "details" ++ " must be of type dictionary for " ++ msg))

/-- `validate_session_id_or_raise` (`util.py:72-83`) -/
def validateSessionId (sessionId : Value) (msg : String) (field : Option String := none) : Except Err Value :=
  match sessionId.asInt? with
  | none => .error (.protocol ("session ID must be an integer for " ++ msg))
  | some i =>
    if i.val < 0 ∨ i.val > 9007199254740992 then
      .error (.protocol ("invalid " ++ field.getD "Session ID" ++ " value for " ++ msg))
    else .ok sessionId

/-- `sep.join(xs)` -/
def join (sep : String) : List String → String
  | [] => ""
  | [x] => x
  | x :: y :: rest => x ++ sep ++ join sep (y :: rest)

/-- `ApplicationError.__str__` (`exception.py:12-23`); `args`, `kwargs` may be `None`. -/
def applicationErrorStr (str : Value → String) (message : String) (args : Option (List Value)) (kwargs : Option PyDict) : String :=
  let err := message
  let err := match args with
    | some (a :: as) => err ++ ": " ++ join ", " ((a :: as).map str)
    | _ => err
  match kwargs with
  | some (k :: ks) => err ++ ": " ++ join ", " ((k :: ks).map fun kv => str kv.1 ++ "=" ++ str kv.2)
  | _ => err

/-- `Error.__str__` (`messages/error.py:165-174`): unlike `ApplicationError.__str__` it looks at `None`, not at emptiness. -/
def errorStr (str : Value → String) (uri : String) (args : Option (List Value)) (kwargs : Option PyDict) : String :=
  let error := uri
  let error := match args with
    | some as => error ++ ": " ++ join ", " (as.map str)
    | none => error
  match kwargs with
  | some ks => error ++ ": " ++ join ", " (ks.map fun kv => str kv.1 ++ "=" ++ str kv.2)
  | none => error

end Wamp.Legacy
