import Verif.Model.Messages

/-!
# Specification vocabulary for the wire format

The WAMP message grammar as a table, independent of the validators: which element kinds follow the type code, and
whether an optional `args`, `kwargs` tail is allowed.  Also: validity of a message object, and which wire element
each attribute of a parsed message must come from.
-/

namespace Wamp.Spec

/-- A WAMP id: an integer in `1 .. 2^53` (Python's `True` is the integer 1). -/
def isId : Value → Bool
  | .int n => 1 ≤ n && n ≤ 2 ^ 53
  | .bool b => b
  | _ => false
def isInt : Value → Bool
  | .int _ => true
  | .bool _ => true
  | _ => false
def isStr : Value → Bool
  | .str _ => true
  | _ => false
def isList : Value → Bool
  | .list _ => true
  | _ => false
def isDict : Value → Bool
  | .dict _ => true
  | _ => false

/-- The entry of a dict under a string key. -/
def entry (d : PyDict) (key : String) : Option Value :=
  (d.find? fun kv => decide (kv.1 = Value.str key)).map (·.2)

/-- An entry that may be absent or `None`. -/
def absentOr (p : Value → Bool) : Option Value → Bool
  | none => true
  | some .none => true
  | some v => p v

/-- The role names a peer may announce. -/
def roleNames : List String := ["callee", "caller", "publisher", "subscriber", "dealer", "broker"]

/-- The roles entry: a non-empty dict whose keys are role names. -/
def isRoles : Option Value → Bool
  | some (.dict r) => !r.isEmpty && r.all fun kv => roleNames.any fun s => decide (kv.1 = Value.str s)
  | _ => false

/-- Element kinds. -/
inductive Kind where
  | id | int | str | list | dict | helloDetails | welcomeDetails
  deriving DecidableEq, Repr

/-- The entries a HELLO details dict is checked for. -/
def helloEntries : List (String × (Option Value → Bool)) :=
  [("authid", absentOr isStr), ("authrole", absentOr isStr), ("authmethods", absentOr isList), ("roles", isRoles),
   ("authextra", absentOr isDict)]
/-- The entries a WELCOME details dict is checked for. -/
def welcomeEntries : List (String × (Option Value → Bool)) :=
  [("roles", isRoles), ("authid", absentOr isStr), ("authrole", absentOr isStr), ("authextra", absentOr isDict),
   ("authmethod", absentOr isStr)]

/-- What is wrong with a details dict: the offending keys. -/
def badEntries (es : List (String × (Option Value → Bool))) (d : PyDict) : List (Option String) :=
  (es.filter fun e => !e.2 (entry d e.1)).map fun e => some e.1

/-- What is wrong with an element of the given kind: nothing (`[]`), the element itself (`[none]`), or the listed
entries of a details dict. -/
def Kind.offences : Kind → Value → List (Option String)
  | .id, v => if isId v then [] else [none]
  | .int, v => if isInt v then [] else [none]
  | .str, v => if isStr v then [] else [none]
  | .list, v => if isList v then [] else [none]
  | .dict, v => if isDict v then [] else [none]
  | .helloDetails, .dict d => badEntries helloEntries d
  | .helloDetails, _ => [none]
  | .welcomeDetails, .dict d => badEntries welcomeEntries d
  | .welcomeDetails, _ => [none]

/-- One line of the grammar: `[code, required..., args?, kwargs?]`. -/
structure Row where
  code : Int
  name : String
  required : List Kind
  payload : Bool
  deriving DecidableEq, Repr

/-- All element kinds after the type code, optional ones included. -/
def Row.kinds (r : Row) : List Kind := r.required ++ if r.payload then [.list, .dict] else []

/-- The grammar (WAMP specification, message definitions). -/
def grammar : List Row := [
  ⟨1, "HELLO", [.str, .helloDetails], false⟩,
  ⟨2, "WELCOME", [.id, .welcomeDetails], false⟩,
  ⟨3, "ABORT", [.dict, .str], true⟩,
  ⟨4, "CHALLENGE", [.str, .dict], false⟩,
  ⟨5, "AUTHENTICATE", [.str, .dict], false⟩,
  ⟨6, "GOODBYE", [.dict, .str], false⟩,
  ⟨8, "ERROR", [.int, .id, .dict, .str], true⟩,
  ⟨16, "PUBLISH", [.id, .dict, .str], true⟩,
  ⟨17, "PUBLISHED", [.id, .id], false⟩,
  ⟨32, "SUBSCRIBE", [.id, .dict, .str], false⟩,
  ⟨33, "SUBSCRIBED", [.id, .id], false⟩,
  ⟨34, "UNSUBSCRIBE", [.id, .id], false⟩,
  ⟨35, "UNSUBSCRIBED", [.id], false⟩,
  ⟨36, "EVENT", [.id, .id, .dict], true⟩,
  ⟨48, "CALL", [.id, .dict, .str], true⟩,
  ⟨49, "CANCEL", [.id, .dict], false⟩,
  ⟨50, "RESULT", [.id, .dict], true⟩,
  ⟨64, "REGISTER", [.id, .dict, .str], false⟩,
  ⟨65, "REGISTERED", [.id, .id], false⟩,
  ⟨66, "UNREGISTER", [.id, .id], false⟩,
  ⟨67, "UNREGISTERED", [.id], false⟩,
  ⟨68, "INVOCATION", [.id, .id, .dict], true⟩,
  ⟨69, "INTERRUPT", [.id, .dict], false⟩,
  ⟨70, "YIELD", [.id, .dict], true⟩]

/-- `v` is the type code `c`: the int itself (or `True` for code 1). -/
def isCode (v : Value) (c : Int) : Bool :=
  match v with
  | .int n => n = c
  | .bool b => b && c = 1
  | _ => false

/-- The elements have a length the row allows. -/
def Row.lengthOk (r : Row) (elems : List Value) : Prop :=
  r.required.length ≤ elems.length ∧ elems.length ≤ r.kinds.length

instance (r : Row) (l : List Value) : Decidable (r.lengthOk l) := by unfold Row.lengthOk; infer_instance

/-- What the sender of a message of the wrong length is told; the lengths count the type code. -/
def Row.lengthText (r : Row) (elems : List Value) : String :=
  if elems.length < r.required.length then
    "invalid message length " ++ toString (elems.length + 1) ++ ", must be at least " ++ toString (r.required.length + 1)
  else "invalid message length " ++ toString (elems.length + 1) ++ ", must be at most " ++ toString (r.kinds.length + 1)

/-- What a class's own `parse` says of a value that is no message of its kind at all: not a list, a list of the wrong
length, or a list that starts with something else than the type code. -/
def Row.refusal (r : Row) : Value → String
  | .list [] => "invalid message length 0, must be at least " ++ toString (r.required.length + 1)
  | .list (t :: elems) =>
    if r.lengthOk elems then "invalid message id " ++ t.pyStr ++ " for " ++ r.name ++ ", expected " ++ toString r.code
    else r.lengthText elems
  | v => "invalid message type " ++ v.typeName ++ " for " ++ r.name ++ ", type should be a list"

/-- Offences of a whole element list (without the type code): message name, position, key. -/
def Row.offences (r : Row) (elems : List Value) : List (String × Nat × Option String) :=
  ((r.kinds.zip elems).zipIdx 1).flatMap fun ((k, v), i) => (k.offences v).map fun key => (r.name, i, key)

/-- The grammar row accepts a decoded value. -/
def Row.Accepts (r : Row) (v : Value) : Prop :=
  ∃ t elems, v = .list (t :: elems) ∧ isCode t r.code = true ∧ r.lengthOk elems ∧ r.offences elems = []

/-! ## Message objects -/

/-- The id range. -/
def IdOk (n : PyInt) : Prop := 1 ≤ n.val ∧ n.val ≤ 2 ^ 53
instance (n : PyInt) : Decidable (IdOk n) := by unfold IdOk; infer_instance

/-- Valid announced roles. -/
def RolesOk (r : PyDict) : Prop := r ≠ [] ∧ ∀ kv ∈ r, ∃ s ∈ roleNames, kv.1 = Value.str s

/-- The id and role constraints on a message object (the other fields are constrained by their types). -/
def Valid : Message → Prop
  | .hello m => RolesOk m.roles
  | .welcome m => IdOk m.sessionId ∧ RolesOk m.roles
  | .abort _ => True
  | .challenge _ => True
  | .authenticate _ => True
  | .goodbye _ => True
  | .call m => IdOk m.requestId
  | .invocation m => IdOk m.requestId ∧ IdOk m.registrationId
  | .yield_ m => IdOk m.requestId
  | .result m => IdOk m.requestId
  | .register m => IdOk m.requestId
  | .registered m => IdOk m.requestId ∧ IdOk m.registrationId
  | .unregister m => IdOk m.requestId ∧ IdOk m.registrationId
  | .unregistered m => IdOk m.requestId
  | .subscribe m => IdOk m.requestId
  | .subscribed m => IdOk m.requestId ∧ IdOk m.subscriptionId
  | .unsubscribe m => IdOk m.requestId ∧ IdOk m.subscriptionId
  | .unsubscribed m => IdOk m.requestId
  | .publish m => IdOk m.requestId
  | .published m => IdOk m.requestId ∧ IdOk m.publicationId
  | .event m => IdOk m.subscriptionId ∧ IdOk m.publicationId
  | .error m => IdOk m.requestId
  | .cancel m => IdOk m.requestId
  | .interrupt m => IdOk m.requestId

/-- No binary payload (see C03) and, for ABORT, no diagnostics (see C02). -/
def Plain : Message → Prop
  | .abort m => m.args = none ∧ m.kwargs = none
  | .call m => m.payload = none ∧ m.serializer = none ∧ m.binary = false
  | .invocation m => m.payload = none ∧ m.serializer = none ∧ m.binary = false
  | .yield_ m => m.payload = none ∧ m.serializer = none ∧ m.binary = false
  | .result m => m.payload = none ∧ m.serializer = none ∧ m.binary = false
  | _ => True

/-- `args` as the receiver sees them: `[]` if only `kwargs` was given. -/
def seenArgs (args : Option (List Value)) (kwargs : Option PyDict) : Option (List Value) :=
  match args, kwargs with
  | none, some _ => some []
  | a, _ => a

/-- The message the receiver should see. -/
def seen : Message → Message
  | .call m => .call { m with args := seenArgs m.args m.kwargs }
  | .invocation m => .invocation { m with args := seenArgs m.args m.kwargs }
  | .yield_ m => .yield_ { m with args := seenArgs m.args m.kwargs }
  | .result m => .result { m with args := seenArgs m.args m.kwargs }
  | .publish m => .publish { m with args := seenArgs m.args m.kwargs }
  | .event m => .event { m with args := seenArgs m.args m.kwargs }
  | .error m => .error { m with args := seenArgs m.args m.kwargs }
  | .abort m => .abort { m with args := seenArgs m.args m.kwargs }
  | m => m

/-- Options or details as a receiver sees them: what the sender gave; of a binary payload they name the serializer. -/
def announced (d : PyDict) : Option Int → PyDict
  | none => d
  | some n => PyDict.set d "x_payload_serializer" (.int n)

/-- What the receiver of any message, plain or not, gets to see: like `seen`, but ABORT diagnostics are lost, and of a
binary payload only the `x_payload_serializer` option/detail remains. -/
def received : Message → Message
  | .abort m => .abort { details := m.details, reason := m.reason }
  | .call m => .call { requestId := m.requestId, procedure := m.procedure, options_ := announced m.options_ m.serializer, kwargs := m.kwargs, args := seenArgs m.args m.kwargs }
  | .invocation m => .invocation { requestId := m.requestId, registrationId := m.registrationId, details_ := announced m.details_ m.serializer, kwargs := m.kwargs, args := seenArgs m.args m.kwargs }
  | .yield_ m => .yield_ { requestId := m.requestId, options_ := announced m.options_ m.serializer, kwargs := m.kwargs, args := seenArgs m.args m.kwargs }
  | .result m => .result { requestId := m.requestId, details_ := announced m.details_ m.serializer, kwargs := m.kwargs, args := seenArgs m.args m.kwargs }
  | m => seen m

/-- The type code of each class. -/
def code : Message → Int
  | .hello _ => 1 | .welcome _ => 2 | .abort _ => 3 | .challenge _ => 4 | .authenticate _ => 5 | .goodbye _ => 6
  | .error _ => 8 | .publish _ => 16 | .published _ => 17
  | .subscribe _ => 32 | .subscribed _ => 33 | .unsubscribe _ => 34 | .unsubscribed _ => 35 | .event _ => 36
  | .call _ => 48 | .cancel _ => 49 | .result _ => 50
  | .register _ => 64 | .registered _ => 65 | .unregister _ => 66 | .unregistered _ => 67
  | .invocation _ => 68 | .interrupt _ => 69 | .yield_ _ => 70

/-- The wire elements at positions `i`, `i+1` are the optional args and kwargs. -/
def PayloadAt (l : List Value) (i : Nat) (args : Option (List Value)) (kwargs : Option PyDict) : Prop :=
  l[i]? = args.map Value.list ∧ l[i + 1]? = kwargs.map Value.dict

/-- A details entry: absent or `None` is `None`. -/
def EntryIs (d : PyDict) (key : String) (v : Option Value) : Prop :=
  match v with
  | some v => entry d key = some v
  | none => entry d key = none ∨ entry d key = some .none

/-- Every attribute of the message object is the wire element at its position. -/
def FieldsFrom (l : List Value) : Message → Prop
  | .hello m => l[1]? = some (.str m.realm) ∧ ∃ d, l[2]? = some (.dict d) ∧ entry d "roles" = some (.dict m.roles) ∧
      EntryIs d "authid" (m.authid.map .str) ∧ EntryIs d "authmethods" (m.authmethods.map .list) ∧
      EntryIs d "authextra" (m.authextra.map .dict)
  | .welcome m => l[1]? = some m.sessionId.toValue ∧ ∃ d, l[2]? = some (.dict d) ∧
      entry d "roles" = some (.dict m.roles) ∧
      EntryIs d "authid" (m.authid.map .str) ∧ EntryIs d "authrole" (m.authrole.map .str) ∧
      EntryIs d "authmethod" (m.authmethod.map .str) ∧
      (EntryIs d "authextra" (some (.dict m.authextra)) ∨ (EntryIs d "authextra" none ∧ m.authextra = []))
  | .abort m => l[1]? = some (.dict m.details) ∧ l[2]? = some (.str m.reason) ∧ PayloadAt l 3 m.args m.kwargs
  | .challenge m => l[1]? = some (.str m.authmethod) ∧ l[2]? = some (.dict m.extra)
  | .authenticate m => l[1]? = some (.str m.signature) ∧ l[2]? = some (.dict m.extra)
  | .goodbye m => l[1]? = some (.dict m.details) ∧ l[2]? = some (.str m.reason)
  | .call m => l[1]? = some m.requestId.toValue ∧ l[2]? = some (.dict m.options) ∧ l[3]? = some (.str m.procedure) ∧
      PayloadAt l 4 m.args m.kwargs
  | .invocation m => l[1]? = some m.requestId.toValue ∧ l[2]? = some m.registrationId.toValue ∧
      l[3]? = some (.dict m.details) ∧ PayloadAt l 4 m.args m.kwargs
  | .yield_ m => l[1]? = some m.requestId.toValue ∧ l[2]? = some (.dict m.options) ∧ PayloadAt l 3 m.args m.kwargs
  | .result m => l[1]? = some m.requestId.toValue ∧ l[2]? = some (.dict m.details) ∧ PayloadAt l 3 m.args m.kwargs
  | .register m => l[1]? = some m.requestId.toValue ∧ l[2]? = some (.dict m.options) ∧ l[3]? = some (.str m.procedure)
  | .registered m => l[1]? = some m.requestId.toValue ∧ l[2]? = some m.registrationId.toValue
  | .unregister m => l[1]? = some m.requestId.toValue ∧ l[2]? = some m.registrationId.toValue
  | .unregistered m => l[1]? = some m.requestId.toValue
  | .subscribe m => l[1]? = some m.requestId.toValue ∧ l[2]? = some (.dict m.options) ∧ l[3]? = some (.str m.topic)
  | .subscribed m => l[1]? = some m.requestId.toValue ∧ l[2]? = some m.subscriptionId.toValue
  | .unsubscribe m => l[1]? = some m.requestId.toValue ∧ l[2]? = some m.subscriptionId.toValue
  | .unsubscribed m => l[1]? = some m.requestId.toValue
  | .publish m => l[1]? = some m.requestId.toValue ∧ l[2]? = some (.dict m.options) ∧ l[3]? = some (.str m.topic) ∧
      PayloadAt l 4 m.args m.kwargs
  | .published m => l[1]? = some m.requestId.toValue ∧ l[2]? = some m.publicationId.toValue
  | .event m => l[1]? = some m.subscriptionId.toValue ∧ l[2]? = some m.publicationId.toValue ∧
      l[3]? = some (.dict m.details) ∧ PayloadAt l 4 m.args m.kwargs
  | .error m => l[1]? = some m.messageType.toValue ∧ l[2]? = some m.requestId.toValue ∧ l[3]? = some (.dict m.details) ∧
      l[4]? = some (.str m.uri) ∧ PayloadAt l 5 m.args m.kwargs
  | .cancel m => l[1]? = some m.requestId.toValue ∧ l[2]? = some (.dict m.options)
  | .interrupt m => l[1]? = some m.requestId.toValue ∧ l[2]? = some (.dict m.options)

/-- Position, message name and (for details entries) key that an error entry talks about. -/
def subject : FieldError → String × Nat × Option String
  | .dataType m i _ _ => (m, i, none)
  | .range m i _ _ _ => (m, i, none)
  | .detail m i key _ _ => (m, i, some key)
  | .rolesEmpty m i => (m, i, some "roles")
  | .rolesInvalid m i _ => (m, i, some "roles")

/-- The name Python gives to the type of a value. -/
def pyType : Value → String
  | .none => "NoneType"
  | .bool _ => "bool"
  | .int _ => "int"
  | .float _ => "float"
  | .str _ => "str"
  | .bytes _ => "bytes"
  | .list _ => "list"
  | .dict _ => "dict"
  | .obj ty _ _ => ty

/-- A value of the type that an error text calls so. -/
def ofType (t : String) (v : Value) : Bool :=
  if t = "int" then isInt v else if t = "string" then isStr v else if t = "list" then isList v else if t = "dict" then isDict v else false

/-- What the error says of the message is so. -/
def Truthful (l : List Value) : FieldError → Prop
  | .dataType _ i expected actual => expected ∈ ["int", "string", "list", "dict"] ∧
      ∃ v, l[i]? = some v ∧ ofType expected v = false ∧ actual = pyType v
  | .range _ i start stop actual => start = 1 ∧ stop = 2 ^ 53 ∧
      ((∃ n, l[i]? = some (.int n) ∧ actual = .int n ∧ (n < 1 ∨ 2 ^ 53 < n)) ∨ (l[i]? = some (.bool false) ∧ actual = .bool false))
  | .detail _ i key expected actual => expected ∈ ["string", "list", "dict"] ∧
      ∃ d, l[i]? = some (.dict d) ∧ ofType expected ((entry d key).getD .none) = false ∧ actual = pyType ((entry d key).getD .none)
  | .rolesEmpty _ i => ∃ d, l[i]? = some (.dict d) ∧ entry d "roles" = some (.dict [])
  | .rolesInvalid _ i role => ∃ d r, l[i]? = some (.dict d) ∧ entry d "roles" = some (.dict r) ∧ role ∈ r.map (·.1) ∧
      ∀ s ∈ roleNames, role ≠ .str s

end Wamp.Spec
