import Verif.Spec.Wire

/-!
# What the sender of a bad message is told

The texts of field validation, written down from the grammar table alone.  Used by C98.
-/

namespace Wamp.Spec

/-- Where in a message something is wrong. -/
def place (name : String) (i : Nat) : String := name ++ ": value at index " ++ toString i

/-- "... must be of type 'dict' but was str" -/
def mustBe (at_ expected : String) (v : Value) : String :=
  at_ ++ " must be of type '" ++ expected ++ "' but was " ++ pyType v

/-- "... must be between '1' and '9007199254740992' but was 0" -/
def mustBeId (at_ was : String) : String :=
  at_ ++ " must be between '1' and '9007199254740992' but was " ++ was

/-- "... for key 'authid' must be of type 'string' but was int" -/
def keyMustBe (at_ key expected : String) (v : Value) : String :=
  at_ ++ " for key '" ++ key ++ "' must be of type '" ++ expected ++ "' but was " ++ pyType v

/-- "... for roles key must be in [...] but was x" -/
def rolesMustBe (at_ was : String) : String :=
  at_ ++ " for roles key must be in ['callee', 'caller', 'publisher', 'subscriber', 'dealer', 'broker'] but was " ++ was

/-- An entry that may be absent or `None`, and is else of a type. -/
def entryComplaint (key expected : String) (at_ : String) : Option Value → List String
  | none => []
  | some .none => []
  | some v => if ofType expected v then [] else [keyMustBe at_ key expected v]

/-- The first key that is no role name. -/
def firstOddRole (r : PyDict) : Option Value :=
  (r.map (·.1)).find? fun k => !roleNames.any fun s => decide (k = Value.str s)

/-- The roles: a dict, not empty, of role names only; the first odd one is named. -/
def rolesComplaint (at_ : String) : Option Value → List String
  | some (.dict []) => [rolesMustBe at_ "empty"]
  | some (.dict r) =>
    match firstOddRole r with
    | some k => [rolesMustBe at_ k.pyStr]
    | none => []
  | some v => [keyMustBe at_ "roles" "dict" v]
  | none => [keyMustBe at_ "roles" "dict" .none]

/-- The entries of a HELLO details dict, in the order they are checked. -/
def helloComplaints (at_ : String) (d : PyDict) : List String :=
  entryComplaint "authid" "string" at_ (entry d "authid") ++ entryComplaint "authrole" "string" at_ (entry d "authrole") ++
  entryComplaint "authmethods" "list" at_ (entry d "authmethods") ++ rolesComplaint at_ (entry d "roles") ++
  entryComplaint "authextra" "dict" at_ (entry d "authextra")

/-- The entries of a WELCOME details dict, in the order they are checked. -/
def welcomeComplaints (at_ : String) (d : PyDict) : List String :=
  rolesComplaint at_ (entry d "roles") ++ entryComplaint "authid" "string" at_ (entry d "authid") ++
  entryComplaint "authrole" "string" at_ (entry d "authrole") ++ entryComplaint "authextra" "dict" at_ (entry d "authextra") ++
  entryComplaint "authmethod" "string" at_ (entry d "authmethod")

/-- What is said of an element that should be of the given kind. -/
def Kind.complaints (at_ : String) : Kind → Value → List String
  | .id, .int n => if 1 ≤ n ∧ n ≤ 2 ^ 53 then [] else [mustBeId at_ (toString n)]
  | .id, .bool b => if b then [] else [mustBeId at_ "False"]
  | .id, v => [mustBe at_ "int" v]
  | .int, v => if isInt v then [] else [mustBe at_ "int" v]
  | .str, v => if isStr v then [] else [mustBe at_ "string" v]
  | .list, v => if isList v then [] else [mustBe at_ "list" v]
  | .dict, v => if isDict v then [] else [mustBe at_ "dict" v]
  | .helloDetails, .dict d => helloComplaints at_ d
  | .helloDetails, v => [mustBe at_ "dict" v]
  | .welcomeDetails, .dict d => welcomeComplaints at_ d
  | .welcomeDetails, v => [mustBe at_ "dict" v]

/-- Everything that is said of the elements after the type code, first element first. -/
def Row.complaints (r : Row) (elems : List Value) : List String :=
  ((r.kinds.zip elems).zipIdx 1).flatMap fun ((k, v), i) => k.complaints (place r.name i) v

/-- The strings an exception carries (`e.args`). -/
def said : Exc → List String
  | .valueError s => [s]
  | .typeError s => [s]
  | .invalid es => es.map FieldError.text
  | _ => []

/-- What reading a decoded value as a message must raise: class of the exception and its strings.  `none`: nothing. -/
def verdict (v : Value) : Option (String × List String) :=
  match v with
  | .list [] => some ("IndexError", [])
  | .list (t :: elems) =>
    if !isInt t then some ("TypeError", ["invalid message type '<class '" ++ pyType t ++ "'>', expected an integer"])
    else
      match grammar.find? fun r => isCode t r.code with
      | none => some ("ValueError", ["unknown message type"])
      | some r =>
        if ¬ r.lengthOk elems then some ("ValueError", [r.lengthText elems])
        else if r.complaints elems = [] then none
        else some ("ValueError", r.complaints elems)
  | v => some ("TypeError", ["invalid type '<class '" ++ pyType v ++ "'>', expected a list"])

/-- The class of an exception raised by `to_message`. -/
def excClass : Exc → String
  | .valueError _ | .invalid _ | .binasciiError => "ValueError"
  | .typeError _ => "TypeError"
  | .keyError => "KeyError"
  | .indexError => "IndexError"
  | .attributeError => "AttributeError"
  | .recursionError => "RecursionError"
  | .notImplementedError => "NotImplementedError"
  | .applicationError .. => "ApplicationError"
  | .external w => w
  | .untyped => "untyped"

/-- `X.parse` of each message class, under its type code. -/
def classes : List (Int × (Value → Except Exc Message)) := [
  (1, fun v => (Hello.parse v).map .hello),
  (2, fun v => (Welcome.parse v).map .welcome),
  (3, fun v => (Abort.parse v).map .abort),
  (4, fun v => (Challenge.parse v).map .challenge),
  (5, fun v => (Authenticate.parse v).map .authenticate),
  (6, fun v => (Goodbye.parse v).map .goodbye),
  (48, fun v => (Call.parse v).map .call),
  (68, fun v => (Invocation.parse v).map .invocation),
  (70, fun v => (Yield.parse v).map .yield_),
  (50, fun v => (Result.parse v).map .result),
  (64, fun v => (Register.parse v).map .register),
  (65, fun v => (Registered.parse v).map .registered),
  (66, fun v => (Unregister.parse v).map .unregister),
  (67, fun v => (Unregistered.parse v).map .unregistered),
  (32, fun v => (Subscribe.parse v).map .subscribe),
  (33, fun v => (Subscribed.parse v).map .subscribed),
  (34, fun v => (Unsubscribe.parse v).map .unsubscribe),
  (35, fun v => (Unsubscribed.parse v).map .unsubscribed),
  (16, fun v => (Publish.parse v).map .publish),
  (17, fun v => (Published.parse v).map .published),
  (36, fun v => (Event.parse v).map .event),
  (8, fun v => (ErrorMsg.parse v).map .error),
  (49, fun v => (Cancel.parse v).map .cancel),
  (69, fun v => (Interrupt.parse v).map .interrupt)]

end Wamp.Spec
