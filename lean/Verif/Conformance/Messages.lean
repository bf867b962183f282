import Verif.Model.Legacy
import Verif.Model.Messages

/-!
# The project's tests of the message classes, as checks of the model

Written by `tools/gen_conformance.py` from `/repo/tests/messages/test_*.py`; every assert of those files is a conjunct below.
These are tests of the transcription, not proofs (see DESIGN.md).
-/

namespace Wamp.Conformance

/-- `str(exc_info.value)` inside `pytest.raises(ValueError)`. -/
def text {α : Type} : Except Exc α → Option String
  | .error (.valueError s) => some s
  | .error (.invalid es) => some (errorsText es)
  | _ => none

/-- What a test asserts of one result. -/
abbrev On {α : Type} (a : α) (p : α → Prop) : Prop := p a

class ToValue (α : Type) where
  toValue : α → Value
export ToValue (toValue)
instance : ToValue PyInt := ⟨PyInt.toValue⟩
instance : ToValue String := ⟨.str⟩
instance : ToValue PyDict := ⟨.dict⟩
instance : ToValue (List Value) := ⟨.list⟩
instance {α : Type} [ToValue α] : ToValue (Option α) := ⟨fun o => o.elim .none toValue⟩

/-- `len(v)` of a list or dict. -/
def size : Value → Nat
  | .list l => l.length
  | .dict d => d.length
  | _ => 0
/-- `v == d` for a dict `d`: the order of the entries does not matter. -/
def same (d : PyDict) : Value → Bool
  | .dict e => d.length = e.length && d.all fun kv => kv ∈ e
  | _ => false
/-- `v[i]` of a list. -/
def elem (i : Nat) : Value → Option Value
  | .list l => l[i]?
  | _ => none

/-! ## `tests/messages/test_hello.py` -/

-- `test_marshal_with_no_roles_and_details` (test_hello.py:7-23)
example : On ((Message.hello { realm := "realm", roles := [] }).marshal) fun r => r.length = 3 ∧ r[0]?.map Value.typeName = some "int" ∧ r[0]? = some (.int 1) ∧ r[1]?.map Value.typeName = some "str" ∧ r[1]? = some (.str "realm") ∧ r[2]?.map Value.typeName = some "dict" ∧ r[2]? = some (.dict [(.str "roles", .dict [])]) := by decide +kernel

-- `test_marshal_with_role_and_no_details` (test_hello.py:26-42)
example : On ((Message.hello { realm := "realm", roles := [(.str "callee", .dict [])] }).marshal) fun r => r.length = 3 ∧ r[0]?.map Value.typeName = some "int" ∧ r[0]? = some (.int 1) ∧ r[1]?.map Value.typeName = some "str" ∧ r[1]? = some (.str "realm") ∧ r[2]?.map Value.typeName = some "dict" ∧ r[2]? = some (.dict [(.str "roles", .dict [(.str "callee", .dict [])])]) := by decide +kernel

-- `test_marshal_with_authid` (test_hello.py:45-61)
example : On ((Message.hello { realm := "realm", roles := [(.str "callee", .dict [])], authid := (some "mahad") }).marshal) fun r => r.length = 3 ∧ r[0]?.map Value.typeName = some "int" ∧ r[0]? = some (.int 1) ∧ r[1]?.map Value.typeName = some "str" ∧ r[1]? = some (.str "realm") ∧ r[2]?.map Value.typeName = some "dict" ∧ r[2]?.map (same [(.str "roles", .dict [(.str "callee", .dict [])]), (.str "authid", .str "mahad")]) = some true := by decide +kernel

-- `test_marshal_with_authmethods` (test_hello.py:64-80)
example : On ((Message.hello { realm := "realm", roles := [(.str "callee", .dict [])], authmethods := (some [.str "ticket"]) }).marshal) fun r => r.length = 3 ∧ r[0]?.map Value.typeName = some "int" ∧ r[0]? = some (.int 1) ∧ r[1]?.map Value.typeName = some "str" ∧ r[1]? = some (.str "realm") ∧ r[2]?.map Value.typeName = some "dict" ∧ r[2]?.map (same [(.str "roles", .dict [(.str "callee", .dict [])]), (.str "authmethods", .list [.str "ticket"])]) = some true := by decide +kernel

-- `test_marshal_with_authextra` (test_hello.py:83-99)
example : On ((Message.hello { realm := "realm", roles := [(.str "callee", .dict [])], authextra := (some [(.str "authproivder", .str "static")]) }).marshal) fun r => r.length = 3 ∧ r[0]?.map Value.typeName = some "int" ∧ r[0]? = some (.int 1) ∧ r[1]?.map Value.typeName = some "str" ∧ r[1]? = some (.str "realm") ∧ r[2]?.map Value.typeName = some "dict" ∧ r[2]?.map (same [(.str "roles", .dict [(.str "callee", .dict [])]), (.str "authextra", .dict [(.str "authproivder", .str "static")])]) = some true := by decide +kernel

-- `test_marshal_with_role_authid` (test_hello.py:102-118)
example : On ((Message.hello { realm := "realm", roles := [(.str "callee", .dict [])], authid := (some "mahad") }).marshal) fun r => r.length = 3 ∧ r[0]?.map Value.typeName = some "int" ∧ r[0]? = some (.int 1) ∧ r[1]?.map Value.typeName = some "str" ∧ r[1]? = some (.str "realm") ∧ r[2]?.map Value.typeName = some "dict" ∧ r[2]?.map (same [(.str "roles", .dict [(.str "callee", .dict [])]), (.str "authid", .str "mahad")]) = some true := by decide +kernel

-- `test_marshal_with_role_authid_authmethods` (test_hello.py:121-137)
example : On ((Message.hello { realm := "realm", roles := [(.str "callee", .dict [])], authid := (some "mahad"), authmethods := (some [.str "ticket"]) }).marshal) fun r => r.length = 3 ∧ r[0]?.map Value.typeName = some "int" ∧ r[0]? = some (.int 1) ∧ r[1]?.map Value.typeName = some "str" ∧ r[1]? = some (.str "realm") ∧ r[2]?.map Value.typeName = some "dict" ∧ r[2]?.map (same [(.str "roles", .dict [(.str "callee", .dict [])]), (.str "authid", .str "mahad"), (.str "authmethods", .list [.str "ticket"])]) = some true := by decide +kernel

-- `test_marshal_with_role_authid_authmethods_authextra` (test_hello.py:140-161)
example : On ((Message.hello { realm := "realm", roles := [(.str "callee", .dict [])], authid := (some "mahad"), authmethods := (some [.str "ticket"]), authextra := (some [(.str "extra", .bool true)]) }).marshal) fun r => r.length = 3 ∧ r[0]?.map Value.typeName = some "int" ∧ r[0]? = some (.int 1) ∧ r[1]?.map Value.typeName = some "str" ∧ r[1]? = some (.str "realm") ∧ r[2]?.map Value.typeName = some "dict" ∧ r[2]?.map (same [(.str "roles", .dict [(.str "callee", .dict [])]), (.str "authid", .str "mahad"), (.str "authmethods", .list [.str "ticket"]), (.str "authextra", .dict [(.str "extra", .bool true)])]) = some true := by decide +kernel

-- `test_parse_with_invalid_type` (test_hello.py:164-171)
example : On (Hello.parse (.str "msg")) fun r => text r = some "invalid message type str for HELLO, type should be a list" := by decide +kernel

-- `test_parse_with_invalid_list_min_length` (test_hello.py:174-179)
example : On (Hello.parse (.list [.int 1])) fun r => text r = some "invalid message length 1, must be at least 3" := by decide +kernel

-- `test_parse_with_invalid_list_max_length` (test_hello.py:182-187)
example : On (Hello.parse (.list [.int 1, .int 5, .int 23, .int 1])) fun r => text r = some "invalid message length 4, must be at most 3" := by decide +kernel

-- `test_parse_with_invalid_message_type` (test_hello.py:190-195)
example : On (Hello.parse (.list [.int 2, .str "realm", .dict []])) fun r => text r = some "invalid message id 2 for HELLO, expected 1" := by decide +kernel

-- `test_parse_with_realm_none` (test_hello.py:198-203)
example : On (Hello.parse (.list [.int 1, .none, .dict [(.str "roles", .dict [(.str "callee", .dict [])])]])) fun r => text r = some "HELLO: value at index 1 must be of type 'string' but was NoneType" := by decide +kernel

-- `test_parse_with_invalid_realm_type` (test_hello.py:206-211)
example : On (Hello.parse (.list [.int 1, .dict [(.str "realm", .str "realm1")], .dict [(.str "roles", .dict [(.str "callee", .dict [])])]])) fun r => text r = some "HELLO: value at index 1 must be of type 'string' but was dict" := by decide +kernel

-- `test_parse_with_invalid_details_type` (test_hello.py:214-219)
example : On (Hello.parse (.list [.int 1, .str "realm1", .str "details"])) fun r => text r = some "HELLO: value at index 2 must be of type 'dict' but was str" := by decide +kernel

-- `test_parse_with_invalid_realm_and_details` (test_hello.py:222-233)
example : On (Hello.parse (.list [.int 1, .dict [(.str "realm", .int 1)], .dict [(.str "authid", .int 123), (.str "role", .str "new")]])) fun r => text r = some "(\"HELLO: value at index 1 must be of type 'string' but was dict\", \"HELLO: value at index 2 for key 'authid' must be of type 'string' but was int\", \"HELLO: value at index 2 for key 'roles' must be of type 'dict' but was NoneType\")" := by decide +kernel

-- `test_parse_with_invalid_details_dict_key` (test_hello.py:236-243)
example : On (Hello.parse (.list [.int 1, .str "realm1", .dict [(.int 1, .str "v")]])) fun r => text r = some "HELLO: value at index 2 for key 'roles' must be of type 'dict' but was NoneType" := by decide +kernel

-- `test_parse_with_invalid_role_type` (test_hello.py:246-251)
example : On (Hello.parse (.list [.int 1, .str "realm1", .dict [(.str "roles", .str "new_role")]])) fun r => text r = some "HELLO: value at index 2 for key 'roles' must be of type 'dict' but was str" := by decide +kernel

-- `test_parse_with_empty_role` (test_hello.py:254-262)
example : On (Hello.parse (.list [.int 1, .str "realm1", .dict [(.str "roles", .dict [])]])) fun r => text r = some "HELLO: value at index 2 for roles key must be in ['callee', 'caller', 'publisher', 'subscriber', 'dealer', 'broker'] but was empty" := by decide +kernel

-- `test_parse_with_invalid_role_key` (test_hello.py:265-273)
example : On (Hello.parse (.list [.int 1, .str "realm1", .dict [(.str "roles", .dict [(.str "new_role", .dict [])])]])) fun r => text r = some "HELLO: value at index 2 for roles key must be in ['callee', 'caller', 'publisher', 'subscriber', 'dealer', 'broker'] but was new_role" := by decide +kernel

-- `test_parse_with_invalid_authid` (test_hello.py:276-283)
example : On (Hello.parse (.list [.int 1, .str "realm1", .dict [(.str "roles", .dict [(.str "callee", .dict [])]), (.str "authid", .list [])]])) fun r => text r = some "HELLO: value at index 2 for key 'authid' must be of type 'string' but was list" := by decide +kernel

-- `test_parse_with_invalid_authmethods_type` (test_hello.py:286-294)
example : On (Hello.parse (.list [.int 1, .str "realm1", .dict [(.str "roles", .dict [(.str "callee", .dict [])]), (.str "authmethods", .str "authmethods")]])) fun r => text r = some "HELLO: value at index 2 for key 'authmethods' must be of type 'list' but was str" := by decide +kernel

-- `test_parse_with_invalid_authextra_type` (test_hello.py:297-305)
example : On (Hello.parse (.list [.int 1, .str "realm1", .dict [(.str "roles", .dict [(.str "callee", .dict [])]), (.str "authextra", .str "authextra")]])) fun r => text r = some "HELLO: value at index 2 for key 'authextra' must be of type 'dict' but was str" := by decide +kernel

-- `test_parse_with_valid_roles` (test_hello.py:308-323)
example : On (Hello.parse (.list [.int 1, .str "realm1", .dict [(.str "roles", .dict [(.str "callee", .dict [])])]])) fun r => r.isOk = true ∧ (r.toOption.map fun m => toValue m.realm).map Value.typeName = some "str" ∧ (r.toOption.map fun m => toValue m.realm) = some (.str "realm1") ∧ (r.toOption.map fun m => toValue m.roles).map Value.typeName = some "dict" ∧ (r.toOption.map fun m => toValue m.roles) = some (.dict [(.str "callee", .dict [])]) ∧ (r.toOption.map fun m => toValue m.authid) = some (.none) ∧ (r.toOption.map fun m => toValue m.authmethods) = some (.none) ∧ (r.toOption.map fun m => toValue m.authextra) = some (.none) := by decide +kernel
example : On (Hello.parse (.list [.int 1, .str "realm1", .dict [(.str "roles", .dict [(.str "caller", .dict [])])]])) fun r => r.isOk = true ∧ (r.toOption.map fun m => toValue m.realm).map Value.typeName = some "str" ∧ (r.toOption.map fun m => toValue m.realm) = some (.str "realm1") ∧ (r.toOption.map fun m => toValue m.roles).map Value.typeName = some "dict" ∧ (r.toOption.map fun m => toValue m.roles) = some (.dict [(.str "caller", .dict [])]) ∧ (r.toOption.map fun m => toValue m.authid) = some (.none) ∧ (r.toOption.map fun m => toValue m.authmethods) = some (.none) ∧ (r.toOption.map fun m => toValue m.authextra) = some (.none) := by decide +kernel
example : On (Hello.parse (.list [.int 1, .str "realm1", .dict [(.str "roles", .dict [(.str "publisher", .dict [])])]])) fun r => r.isOk = true ∧ (r.toOption.map fun m => toValue m.realm).map Value.typeName = some "str" ∧ (r.toOption.map fun m => toValue m.realm) = some (.str "realm1") ∧ (r.toOption.map fun m => toValue m.roles).map Value.typeName = some "dict" ∧ (r.toOption.map fun m => toValue m.roles) = some (.dict [(.str "publisher", .dict [])]) ∧ (r.toOption.map fun m => toValue m.authid) = some (.none) ∧ (r.toOption.map fun m => toValue m.authmethods) = some (.none) ∧ (r.toOption.map fun m => toValue m.authextra) = some (.none) := by decide +kernel
example : On (Hello.parse (.list [.int 1, .str "realm1", .dict [(.str "roles", .dict [(.str "subscriber", .dict [])])]])) fun r => r.isOk = true ∧ (r.toOption.map fun m => toValue m.realm).map Value.typeName = some "str" ∧ (r.toOption.map fun m => toValue m.realm) = some (.str "realm1") ∧ (r.toOption.map fun m => toValue m.roles).map Value.typeName = some "dict" ∧ (r.toOption.map fun m => toValue m.roles) = some (.dict [(.str "subscriber", .dict [])]) ∧ (r.toOption.map fun m => toValue m.authid) = some (.none) ∧ (r.toOption.map fun m => toValue m.authmethods) = some (.none) ∧ (r.toOption.map fun m => toValue m.authextra) = some (.none) := by decide +kernel
example : On (Hello.parse (.list [.int 1, .str "realm1", .dict [(.str "roles", .dict [(.str "dealer", .dict [])])]])) fun r => r.isOk = true ∧ (r.toOption.map fun m => toValue m.realm).map Value.typeName = some "str" ∧ (r.toOption.map fun m => toValue m.realm) = some (.str "realm1") ∧ (r.toOption.map fun m => toValue m.roles).map Value.typeName = some "dict" ∧ (r.toOption.map fun m => toValue m.roles) = some (.dict [(.str "dealer", .dict [])]) ∧ (r.toOption.map fun m => toValue m.authid) = some (.none) ∧ (r.toOption.map fun m => toValue m.authmethods) = some (.none) ∧ (r.toOption.map fun m => toValue m.authextra) = some (.none) := by decide +kernel
example : On (Hello.parse (.list [.int 1, .str "realm1", .dict [(.str "roles", .dict [(.str "broker", .dict [])])]])) fun r => r.isOk = true ∧ (r.toOption.map fun m => toValue m.realm).map Value.typeName = some "str" ∧ (r.toOption.map fun m => toValue m.realm) = some (.str "realm1") ∧ (r.toOption.map fun m => toValue m.roles).map Value.typeName = some "dict" ∧ (r.toOption.map fun m => toValue m.roles) = some (.dict [(.str "broker", .dict [])]) ∧ (r.toOption.map fun m => toValue m.authid) = some (.none) ∧ (r.toOption.map fun m => toValue m.authmethods) = some (.none) ∧ (r.toOption.map fun m => toValue m.authextra) = some (.none) := by decide +kernel

-- `test_parse_with_multiple_roles` (test_hello.py:326-340)
example : On (Hello.parse (.list [.int 1, .str "realm1", .dict [(.str "roles", .dict [(.str "callee", .dict []), (.str "caller", .dict [])])]])) fun r => r.isOk = true ∧ (r.toOption.map fun m => toValue m.realm).map Value.typeName = some "str" ∧ (r.toOption.map fun m => toValue m.realm) = some (.str "realm1") ∧ (r.toOption.map fun m => toValue m.roles).map Value.typeName = some "dict" ∧ (r.toOption.map fun m => toValue m.roles).map (same [(.str "callee", .dict []), (.str "caller", .dict [])]) = some true ∧ (r.toOption.map fun m => toValue m.authid) = some (.none) ∧ (r.toOption.map fun m => toValue m.authmethods) = some (.none) ∧ (r.toOption.map fun m => toValue m.authextra) = some (.none) := by decide +kernel

-- `test_parse_with_authid` (test_hello.py:343-358)
example : On (Hello.parse (.list [.int 1, .str "realm1", .dict [(.str "roles", .dict [(.str "callee", .dict [])]), (.str "authid", .str "mahad")]])) fun r => r.isOk = true ∧ (r.toOption.map fun m => toValue m.realm).map Value.typeName = some "str" ∧ (r.toOption.map fun m => toValue m.realm) = some (.str "realm1") ∧ (r.toOption.map fun m => toValue m.roles).map Value.typeName = some "dict" ∧ (r.toOption.map fun m => toValue m.roles) = some (.dict [(.str "callee", .dict [])]) ∧ (r.toOption.map fun m => toValue m.authid).map Value.typeName = some "str" ∧ (r.toOption.map fun m => toValue m.authid) = some (.str "mahad") ∧ (r.toOption.map fun m => toValue m.authmethods) = some (.none) ∧ (r.toOption.map fun m => toValue m.authextra) = some (.none) := by decide +kernel

-- `test_parse_with_authmethods` (test_hello.py:361-378)
example : On (Hello.parse (.list [.int 1, .str "realm1", .dict [(.str "roles", .dict [(.str "callee", .dict [])]), (.str "authmethods", .list [.str "wampcra"])]])) fun r => r.isOk = true ∧ (r.toOption.map fun m => toValue m.realm).map Value.typeName = some "str" ∧ (r.toOption.map fun m => toValue m.realm) = some (.str "realm1") ∧ (r.toOption.map fun m => toValue m.roles).map Value.typeName = some "dict" ∧ (r.toOption.map fun m => toValue m.roles) = some (.dict [(.str "callee", .dict [])]) ∧ (r.toOption.map fun m => toValue m.authmethods).map Value.typeName = some "list" ∧ (r.toOption.map fun m => toValue m.authmethods).map size = some 1 ∧ (r.toOption.map fun m => toValue m.authmethods).bind (elem 0) = some (.str "wampcra") ∧ (r.toOption.map fun m => toValue m.authid) = some (.none) ∧ (r.toOption.map fun m => toValue m.authextra) = some (.none) := by decide +kernel

-- `test_parse_with_authextra` (test_hello.py:381-398)
example : On (Hello.parse (.list [.int 1, .str "realm1", .dict [(.str "roles", .dict [(.str "callee", .dict [])]), (.str "authextra", .dict [(.str "extra", .bool true)])]])) fun r => r.isOk = true ∧ (r.toOption.map fun m => toValue m.realm).map Value.typeName = some "str" ∧ (r.toOption.map fun m => toValue m.realm) = some (.str "realm1") ∧ (r.toOption.map fun m => toValue m.roles).map Value.typeName = some "dict" ∧ (r.toOption.map fun m => toValue m.roles) = some (.dict [(.str "callee", .dict [])]) ∧ (r.toOption.map fun m => toValue m.authextra).map Value.typeName = some "dict" ∧ (r.toOption.map fun m => toValue m.authextra).map size = some 1 ∧ (r.toOption.map fun m => toValue m.authextra) = some (.dict [(.str "extra", .bool true)]) ∧ (r.toOption.map fun m => toValue m.authid) = some (.none) ∧ (r.toOption.map fun m => toValue m.authmethods) = some (.none) := by decide +kernel

-- `test_parse_with_authid_authmethods` (test_hello.py:401-420)
example : On (Hello.parse (.list [.int 1, .str "realm1", .dict [(.str "roles", .dict [(.str "callee", .dict [])]), (.str "authid", .str "mahad"), (.str "authmethods", .list [.str "wampcra"])]])) fun r => r.isOk = true ∧ (r.toOption.map fun m => toValue m.realm).map Value.typeName = some "str" ∧ (r.toOption.map fun m => toValue m.realm) = some (.str "realm1") ∧ (r.toOption.map fun m => toValue m.roles).map Value.typeName = some "dict" ∧ (r.toOption.map fun m => toValue m.roles) = some (.dict [(.str "callee", .dict [])]) ∧ (r.toOption.map fun m => toValue m.authid).map Value.typeName = some "str" ∧ (r.toOption.map fun m => toValue m.authid) = some (.str "mahad") ∧ (r.toOption.map fun m => toValue m.authmethods).map Value.typeName = some "list" ∧ (r.toOption.map fun m => toValue m.authmethods).map size = some 1 ∧ (r.toOption.map fun m => toValue m.authmethods).bind (elem 0) = some (.str "wampcra") ∧ (r.toOption.map fun m => toValue m.authextra) = some (.none) := by decide +kernel

-- `test_parse_with_authid_authmethods_authextra` (test_hello.py:423-449)
example : On (Hello.parse (.list [.int 1, .str "realm1", .dict [(.str "roles", .dict [(.str "callee", .dict [])]), (.str "authid", .str "mahad"), (.str "authmethods", .list [.str "wampcra"]), (.str "authextra", .dict [(.str "provider", .str "dynamic")])]])) fun r => r.isOk = true ∧ (r.toOption.map fun m => toValue m.realm).map Value.typeName = some "str" ∧ (r.toOption.map fun m => toValue m.realm) = some (.str "realm1") ∧ (r.toOption.map fun m => toValue m.roles).map Value.typeName = some "dict" ∧ (r.toOption.map fun m => toValue m.roles) = some (.dict [(.str "callee", .dict [])]) ∧ (r.toOption.map fun m => toValue m.authid).map Value.typeName = some "str" ∧ (r.toOption.map fun m => toValue m.authid) = some (.str "mahad") ∧ (r.toOption.map fun m => toValue m.authmethods).map Value.typeName = some "list" ∧ (r.toOption.map fun m => toValue m.authmethods).map size = some 1 ∧ (r.toOption.map fun m => toValue m.authmethods).bind (elem 0) = some (.str "wampcra") ∧ (r.toOption.map fun m => toValue m.authextra).map Value.typeName = some "dict" ∧ (r.toOption.map fun m => toValue m.authextra).map size = some 1 ∧ (r.toOption.map fun m => toValue m.authextra) = some (.dict [(.str "provider", .str "dynamic")]) := by decide +kernel

/-! ## `tests/messages/test_welcome.py` -/

-- `test_welcome` (test_welcome.py:33-40)
example : On ((Message.welcome { sessionId := (.int 25631), roles := [] }).marshal) fun r => r.length = 3 ∧ r[0]? = some (.int 2) ∧ r[1]? = some (.int 25631) ∧ r[2]?.map (same [(.str "roles", .dict []), (.str "authextra", .dict [])]) = some true := by decide +kernel
example : On ((Message.welcome { sessionId := (.int 25631), roles := [(.str "caller", .str "")], authid := (some "mahad") }).marshal) fun r => r.length = 3 ∧ r[0]? = some (.int 2) ∧ r[1]? = some (.int 25631) ∧ r[2]?.map (same [(.str "roles", .dict [(.str "caller", .str "")]), (.str "authid", .str "mahad"), (.str "authextra", .dict [])]) = some true := by decide +kernel
example : On ((Message.welcome { sessionId := (.int 25631), roles := [(.str "caller", .str "")], authrole := (some "callee") }).marshal) fun r => r.length = 3 ∧ r[0]? = some (.int 2) ∧ r[1]? = some (.int 25631) ∧ r[2]?.map (same [(.str "roles", .dict [(.str "caller", .str "")]), (.str "authrole", .str "callee"), (.str "authextra", .dict [])]) = some true := by decide +kernel
example : On ((Message.welcome { sessionId := (.int 25631), roles := [(.str "publisher", .str "")], authid := (some "mahad"), authrole := (some "callee") }).marshal) fun r => r.length = 3 ∧ r[0]? = some (.int 2) ∧ r[1]? = some (.int 25631) ∧ r[2]?.map (same [(.str "roles", .dict [(.str "publisher", .str "")]), (.str "authrole", .str "callee"), (.str "authid", .str "mahad"), (.str "authextra", .dict [])]) = some true := by decide +kernel

-- `test_marshal_with_no_roles_and_details` (test_welcome.py:43-58)
example : On ((Message.welcome { sessionId := (.int 25631), roles := [] }).marshal) fun r => r.length = 3 ∧ r[0]?.map Value.typeName = some "int" ∧ r[0]? = some (.int 2) ∧ r[1]?.map Value.typeName = some "int" ∧ r[1]? = some (.int 25631) ∧ r[2]?.map Value.typeName = some "dict" ∧ r[2]?.map (same [(.str "roles", .dict []), (.str "authextra", .dict [])]) = some true := by decide +kernel

-- `test_marshal_with_role_and_no_details` (test_welcome.py:61-76)
example : On ((Message.welcome { sessionId := (.int 25631), roles := [(.str "callee", .dict [])] }).marshal) fun r => r.length = 3 ∧ r[0]?.map Value.typeName = some "int" ∧ r[0]? = some (.int 2) ∧ r[1]?.map Value.typeName = some "int" ∧ r[1]? = some (.int 25631) ∧ r[2]?.map Value.typeName = some "dict" ∧ r[2]?.map (same [(.str "roles", .dict [(.str "callee", .dict [])]), (.str "authextra", .dict [])]) = some true := by decide +kernel

-- `test_marshal_with_authid` (test_welcome.py:79-94)
example : On ((Message.welcome { sessionId := (.int 25631), roles := [(.str "callee", .dict [])], authid := (some "mahad") }).marshal) fun r => r.length = 3 ∧ r[0]?.map Value.typeName = some "int" ∧ r[0]? = some (.int 2) ∧ r[1]?.map Value.typeName = some "int" ∧ r[1]? = some (.int 25631) ∧ r[2]?.map Value.typeName = some "dict" ∧ r[2]?.map (same [(.str "roles", .dict [(.str "callee", .dict [])]), (.str "authid", .str "mahad"), (.str "authextra", .dict [])]) = some true := by decide +kernel

-- `test_marshal_with_authrole` (test_welcome.py:97-112)
example : On ((Message.welcome { sessionId := (.int 25631), roles := [(.str "callee", .dict [])], authrole := (some "admin") }).marshal) fun r => r.length = 3 ∧ r[0]?.map Value.typeName = some "int" ∧ r[0]? = some (.int 2) ∧ r[1]?.map Value.typeName = some "int" ∧ r[1]? = some (.int 25631) ∧ r[2]?.map Value.typeName = some "dict" ∧ r[2]?.map (same [(.str "roles", .dict [(.str "callee", .dict [])]), (.str "authrole", .str "admin"), (.str "authextra", .dict [])]) = some true := by decide +kernel

-- `test_marshal_with_authmethod` (test_welcome.py:115-130)
example : On ((Message.welcome { sessionId := (.int 25631), roles := [(.str "callee", .dict [])], authmethod := (some "anonymous") }).marshal) fun r => r.length = 3 ∧ r[0]?.map Value.typeName = some "int" ∧ r[0]? = some (.int 2) ∧ r[1]?.map Value.typeName = some "int" ∧ r[1]? = some (.int 25631) ∧ r[2]?.map Value.typeName = some "dict" ∧ r[2]?.map (same [(.str "roles", .dict [(.str "callee", .dict [])]), (.str "authmethod", .str "anonymous"), (.str "authextra", .dict [])]) = some true := by decide +kernel

-- `test_marshal_with_authextra` (test_welcome.py:133-148)
example : On ((Message.welcome { sessionId := (.int 25631), roles := [(.str "callee", .dict [])], authextra := [(.str "extra", .bool true)] }).marshal) fun r => r.length = 3 ∧ r[0]?.map Value.typeName = some "int" ∧ r[0]? = some (.int 2) ∧ r[1]?.map Value.typeName = some "int" ∧ r[1]? = some (.int 25631) ∧ r[2]?.map Value.typeName = some "dict" ∧ r[2]?.map (same [(.str "roles", .dict [(.str "callee", .dict [])]), (.str "authextra", .dict [(.str "extra", .bool true)])]) = some true := by decide +kernel

-- `test_marshal_with_role_authid_and_authrole` (test_welcome.py:151-166)
example : On ((Message.welcome { sessionId := (.int 25631), roles := [(.str "callee", .dict [])], authid := (some "mahad"), authrole := (some "admin") }).marshal) fun r => r.length = 3 ∧ r[0]?.map Value.typeName = some "int" ∧ r[0]? = some (.int 2) ∧ r[1]?.map Value.typeName = some "int" ∧ r[1]? = some (.int 25631) ∧ r[2]?.map Value.typeName = some "dict" ∧ r[2]?.map (same [(.str "roles", .dict [(.str "callee", .dict [])]), (.str "authid", .str "mahad"), (.str "authrole", .str "admin"), (.str "authextra", .dict [])]) = some true := by decide +kernel

-- `test_marshal_with_role_authid_authrole_authmethod` (test_welcome.py:169-190)
example : On ((Message.welcome { sessionId := (.int 25631), roles := [(.str "callee", .dict [])], authid := (some "mahad"), authrole := (some "admin"), authmethod := (some "ticket") }).marshal) fun r => r.length = 3 ∧ r[0]?.map Value.typeName = some "int" ∧ r[0]? = some (.int 2) ∧ r[1]?.map Value.typeName = some "int" ∧ r[1]? = some (.int 25631) ∧ r[2]?.map Value.typeName = some "dict" ∧ r[2]?.map (same [(.str "roles", .dict [(.str "callee", .dict [])]), (.str "authid", .str "mahad"), (.str "authrole", .str "admin"), (.str "authmethod", .str "ticket"), (.str "authextra", .dict [])]) = some true := by decide +kernel

-- `test_marshal_with_role_authid_authrole_authmethod_authextra` (test_welcome.py:193-214)
example : On ((Message.welcome { sessionId := (.int 25631), roles := [(.str "callee", .dict [])], authid := (some "mahad"), authrole := (some "admin"), authmethod := (some "ticket"), authextra := [(.str "authprovider", .str "static")] }).marshal) fun r => r.length = 3 ∧ r[0]?.map Value.typeName = some "int" ∧ r[0]? = some (.int 2) ∧ r[1]?.map Value.typeName = some "int" ∧ r[1]? = some (.int 25631) ∧ r[2]?.map Value.typeName = some "dict" ∧ r[2]?.map (same [(.str "roles", .dict [(.str "callee", .dict [])]), (.str "authid", .str "mahad"), (.str "authrole", .str "admin"), (.str "authmethod", .str "ticket"), (.str "authextra", .dict [(.str "authprovider", .str "static")])]) = some true := by decide +kernel

-- `test_parse_with_invalid_type` (test_welcome.py:217-225)
example : On (Welcome.parse (.str "msg")) fun r => text r = some "invalid message type str for WELCOME, type should be a list" := by decide +kernel

-- `test_parse_with_invalid_list_min_length` (test_welcome.py:228-233)
example : On (Welcome.parse (.list [.int 2])) fun r => text r = some "invalid message length 1, must be at least 3" := by decide +kernel

-- `test_parse_with_invalid_list_max_length` (test_welcome.py:236-241)
example : On (Welcome.parse (.list [.int 1, .int 5, .int 23, .int 1])) fun r => text r = some "invalid message length 4, must be at most 3" := by decide +kernel

-- `test_parse_with_invalid_message_type` (test_welcome.py:244-249)
example : On (Welcome.parse (.list [.int 1, .int 25631, .dict []])) fun r => text r = some "invalid message id 1 for WELCOME, expected 2" := by decide +kernel

-- `test_parse_with_invalid_session_type` (test_welcome.py:252-257)
example : On (Welcome.parse (.list [.int 2, .list [.str "session"], .dict [(.str "roles", .dict [(.str "callee", .dict [])])]])) fun r => text r = some "WELCOME: value at index 1 must be of type 'int' but was list" := by decide +kernel

-- `test_parse_with_negative_session_value` (test_welcome.py:260-268)
example : On (Welcome.parse (.list [.int 2, .int (-1), .dict [(.str "roles", .dict [(.str "callee", .dict [])])]])) fun r => text r = some "WELCOME: value at index 1 must be between '1' and '9007199254740992' but was -1" := by decide +kernel

-- `test_parse_with_out_of_range_session_value` (test_welcome.py:271-280)
example : On (Welcome.parse (.list [.int 2, .int 9007199254740993, .dict [(.str "roles", .dict [(.str "callee", .dict [])])]])) fun r => text r = some "WELCOME: value at index 1 must be between '1' and '9007199254740992' but was 9007199254740993" := by decide +kernel

-- `test_parse_with_invalid_details_type` (test_welcome.py:283-288)
example : On (Welcome.parse (.list [.int 2, .int 25631, .str "details"])) fun r => text r = some "WELCOME: value at index 2 must be of type 'dict' but was str" := by decide +kernel

-- `test_parse_with_invalid_details_dict_key` (test_welcome.py:291-299)
example : On (Welcome.parse (.list [.int 2, .int 25631, .dict [(.int 1, .str "v")]])) fun r => text r = some "WELCOME: value at index 2 for key 'roles' must be of type 'dict' but was NoneType" := by decide +kernel

-- `test_parse_with_invalid_role_type` (test_welcome.py:302-307)
example : On (Welcome.parse (.list [.int 2, .int 25631, .dict [(.str "roles", .str "new_role")]])) fun r => text r = some "WELCOME: value at index 2 for key 'roles' must be of type 'dict' but was str" := by decide +kernel

-- `test_parse_with_empty_role` (test_welcome.py:310-319)
example : On (Welcome.parse (.list [.int 2, .int 25631, .dict [(.str "roles", .dict [])]])) fun r => text r = some "WELCOME: value at index 2 for roles key must be in ['callee', 'caller', 'publisher', 'subscriber', 'dealer', 'broker'] but was empty" := by decide +kernel

-- `test_parse_with_invalid_role_key` (test_welcome.py:322-331)
example : On (Welcome.parse (.list [.int 2, .int 25631, .dict [(.str "roles", .dict [(.str "new_role", .dict [])])]])) fun r => text r = some "WELCOME: value at index 2 for roles key must be in ['callee', 'caller', 'publisher', 'subscriber', 'dealer', 'broker'] but was new_role" := by decide +kernel

-- `test_parse_with_invalid_authid` (test_welcome.py:334-342)
example : On (Welcome.parse (.list [.int 2, .int 25631, .dict [(.str "roles", .dict [(.str "callee", .dict [])]), (.str "authid", .list [])]])) fun r => text r = some "WELCOME: value at index 2 for key 'authid' must be of type 'string' but was list" := by decide +kernel

-- `test_parse_with_invalid_authrole` (test_welcome.py:345-353)
example : On (Welcome.parse (.list [.int 2, .int 25631, .dict [(.str "roles", .dict [(.str "callee", .dict [])]), (.str "authrole", .list [])]])) fun r => text r = some "WELCOME: value at index 2 for key 'authrole' must be of type 'string' but was list" := by decide +kernel

-- `test_parse_with_invalid_authmethod_type` (test_welcome.py:356-364)
example : On (Welcome.parse (.list [.int 2, .int 25631, .dict [(.str "roles", .dict [(.str "callee", .dict [])]), (.str "authmethod", .list [])]])) fun r => text r = some "WELCOME: value at index 2 for key 'authmethod' must be of type 'string' but was list" := by decide +kernel

-- `test_parse_with_invalid_authextra_type` (test_welcome.py:367-375)
example : On (Welcome.parse (.list [.int 2, .int 25631, .dict [(.str "roles", .dict [(.str "callee", .dict [])]), (.str "authextra", .str "authextra")]])) fun r => text r = some "WELCOME: value at index 2 for key 'authextra' must be of type 'dict' but was str" := by decide +kernel

-- `test_parse_with_valid_roles` (test_welcome.py:378-393)
example : On (Welcome.parse (.list [.int 2, .int 25631, .dict [(.str "roles", .dict [(.str "callee", .dict [])])]])) fun r => r.isOk = true ∧ (r.toOption.map fun m => toValue m.sessionId).map Value.typeName = some "int" ∧ (r.toOption.map fun m => toValue m.sessionId) = some (.int 25631) ∧ (r.toOption.map fun m => toValue m.roles).map Value.typeName = some "dict" ∧ (r.toOption.map fun m => toValue m.roles) = some (.dict [(.str "callee", .dict [])]) ∧ (r.toOption.map fun m => toValue m.authid) = some (.none) ∧ (r.toOption.map fun m => toValue m.authrole) = some (.none) ∧ (r.toOption.map fun m => toValue m.authmethod) = some (.none) ∧ (r.toOption.map fun m => toValue m.authextra) = some (.dict []) := by decide +kernel
example : On (Welcome.parse (.list [.int 2, .int 25631, .dict [(.str "roles", .dict [(.str "caller", .dict [])])]])) fun r => r.isOk = true ∧ (r.toOption.map fun m => toValue m.sessionId).map Value.typeName = some "int" ∧ (r.toOption.map fun m => toValue m.sessionId) = some (.int 25631) ∧ (r.toOption.map fun m => toValue m.roles).map Value.typeName = some "dict" ∧ (r.toOption.map fun m => toValue m.roles) = some (.dict [(.str "caller", .dict [])]) ∧ (r.toOption.map fun m => toValue m.authid) = some (.none) ∧ (r.toOption.map fun m => toValue m.authrole) = some (.none) ∧ (r.toOption.map fun m => toValue m.authmethod) = some (.none) ∧ (r.toOption.map fun m => toValue m.authextra) = some (.dict []) := by decide +kernel
example : On (Welcome.parse (.list [.int 2, .int 25631, .dict [(.str "roles", .dict [(.str "publisher", .dict [])])]])) fun r => r.isOk = true ∧ (r.toOption.map fun m => toValue m.sessionId).map Value.typeName = some "int" ∧ (r.toOption.map fun m => toValue m.sessionId) = some (.int 25631) ∧ (r.toOption.map fun m => toValue m.roles).map Value.typeName = some "dict" ∧ (r.toOption.map fun m => toValue m.roles) = some (.dict [(.str "publisher", .dict [])]) ∧ (r.toOption.map fun m => toValue m.authid) = some (.none) ∧ (r.toOption.map fun m => toValue m.authrole) = some (.none) ∧ (r.toOption.map fun m => toValue m.authmethod) = some (.none) ∧ (r.toOption.map fun m => toValue m.authextra) = some (.dict []) := by decide +kernel
example : On (Welcome.parse (.list [.int 2, .int 25631, .dict [(.str "roles", .dict [(.str "subscriber", .dict [])])]])) fun r => r.isOk = true ∧ (r.toOption.map fun m => toValue m.sessionId).map Value.typeName = some "int" ∧ (r.toOption.map fun m => toValue m.sessionId) = some (.int 25631) ∧ (r.toOption.map fun m => toValue m.roles).map Value.typeName = some "dict" ∧ (r.toOption.map fun m => toValue m.roles) = some (.dict [(.str "subscriber", .dict [])]) ∧ (r.toOption.map fun m => toValue m.authid) = some (.none) ∧ (r.toOption.map fun m => toValue m.authrole) = some (.none) ∧ (r.toOption.map fun m => toValue m.authmethod) = some (.none) ∧ (r.toOption.map fun m => toValue m.authextra) = some (.dict []) := by decide +kernel
example : On (Welcome.parse (.list [.int 2, .int 25631, .dict [(.str "roles", .dict [(.str "dealer", .dict [])])]])) fun r => r.isOk = true ∧ (r.toOption.map fun m => toValue m.sessionId).map Value.typeName = some "int" ∧ (r.toOption.map fun m => toValue m.sessionId) = some (.int 25631) ∧ (r.toOption.map fun m => toValue m.roles).map Value.typeName = some "dict" ∧ (r.toOption.map fun m => toValue m.roles) = some (.dict [(.str "dealer", .dict [])]) ∧ (r.toOption.map fun m => toValue m.authid) = some (.none) ∧ (r.toOption.map fun m => toValue m.authrole) = some (.none) ∧ (r.toOption.map fun m => toValue m.authmethod) = some (.none) ∧ (r.toOption.map fun m => toValue m.authextra) = some (.dict []) := by decide +kernel
example : On (Welcome.parse (.list [.int 2, .int 25631, .dict [(.str "roles", .dict [(.str "broker", .dict [])])]])) fun r => r.isOk = true ∧ (r.toOption.map fun m => toValue m.sessionId).map Value.typeName = some "int" ∧ (r.toOption.map fun m => toValue m.sessionId) = some (.int 25631) ∧ (r.toOption.map fun m => toValue m.roles).map Value.typeName = some "dict" ∧ (r.toOption.map fun m => toValue m.roles) = some (.dict [(.str "broker", .dict [])]) ∧ (r.toOption.map fun m => toValue m.authid) = some (.none) ∧ (r.toOption.map fun m => toValue m.authrole) = some (.none) ∧ (r.toOption.map fun m => toValue m.authmethod) = some (.none) ∧ (r.toOption.map fun m => toValue m.authextra) = some (.dict []) := by decide +kernel

-- `test_parse_with_multiple_roles` (test_welcome.py:396-410)
example : On (Welcome.parse (.list [.int 2, .int 25631, .dict [(.str "roles", .dict [(.str "callee", .dict []), (.str "caller", .dict [])])]])) fun r => r.isOk = true ∧ (r.toOption.map fun m => toValue m.sessionId).map Value.typeName = some "int" ∧ (r.toOption.map fun m => toValue m.sessionId) = some (.int 25631) ∧ (r.toOption.map fun m => toValue m.roles).map Value.typeName = some "dict" ∧ (r.toOption.map fun m => toValue m.roles).map (same [(.str "callee", .dict []), (.str "caller", .dict [])]) = some true ∧ (r.toOption.map fun m => toValue m.authid) = some (.none) ∧ (r.toOption.map fun m => toValue m.authrole) = some (.none) ∧ (r.toOption.map fun m => toValue m.authmethod) = some (.none) ∧ (r.toOption.map fun m => toValue m.authextra) = some (.dict []) := by decide +kernel

-- `test_parse_with_authid` (test_welcome.py:413-428)
example : On (Welcome.parse (.list [.int 2, .int 25631, .dict [(.str "roles", .dict [(.str "callee", .dict [])]), (.str "authid", .str "mahad")]])) fun r => r.isOk = true ∧ (r.toOption.map fun m => toValue m.sessionId).map Value.typeName = some "int" ∧ (r.toOption.map fun m => toValue m.sessionId) = some (.int 25631) ∧ (r.toOption.map fun m => toValue m.roles).map Value.typeName = some "dict" ∧ (r.toOption.map fun m => toValue m.roles) = some (.dict [(.str "callee", .dict [])]) ∧ (r.toOption.map fun m => toValue m.authid).map Value.typeName = some "str" ∧ (r.toOption.map fun m => toValue m.authid) = some (.str "mahad") ∧ (r.toOption.map fun m => toValue m.authrole) = some (.none) ∧ (r.toOption.map fun m => toValue m.authmethod) = some (.none) ∧ (r.toOption.map fun m => toValue m.authextra) = some (.dict []) := by decide +kernel

-- `test_parse_with_authrole` (test_welcome.py:431-446)
example : On (Welcome.parse (.list [.int 2, .int 25631, .dict [(.str "roles", .dict [(.str "callee", .dict [])]), (.str "authrole", .str "admin")]])) fun r => r.isOk = true ∧ (r.toOption.map fun m => toValue m.sessionId).map Value.typeName = some "int" ∧ (r.toOption.map fun m => toValue m.sessionId) = some (.int 25631) ∧ (r.toOption.map fun m => toValue m.roles).map Value.typeName = some "dict" ∧ (r.toOption.map fun m => toValue m.roles) = some (.dict [(.str "callee", .dict [])]) ∧ (r.toOption.map fun m => toValue m.authrole).map Value.typeName = some "str" ∧ (r.toOption.map fun m => toValue m.authrole) = some (.str "admin") ∧ (r.toOption.map fun m => toValue m.authid) = some (.none) ∧ (r.toOption.map fun m => toValue m.authmethod) = some (.none) ∧ (r.toOption.map fun m => toValue m.authextra) = some (.dict []) := by decide +kernel

-- `test_parse_with_authmethod` (test_welcome.py:449-464)
example : On (Welcome.parse (.list [.int 2, .int 25631, .dict [(.str "roles", .dict [(.str "callee", .dict [])]), (.str "authmethod", .str "cryptosign")]])) fun r => r.isOk = true ∧ (r.toOption.map fun m => toValue m.sessionId).map Value.typeName = some "int" ∧ (r.toOption.map fun m => toValue m.sessionId) = some (.int 25631) ∧ (r.toOption.map fun m => toValue m.roles).map Value.typeName = some "dict" ∧ (r.toOption.map fun m => toValue m.roles) = some (.dict [(.str "callee", .dict [])]) ∧ (r.toOption.map fun m => toValue m.authmethod).map Value.typeName = some "str" ∧ (r.toOption.map fun m => toValue m.authmethod) = some (.str "cryptosign") ∧ (r.toOption.map fun m => toValue m.authid) = some (.none) ∧ (r.toOption.map fun m => toValue m.authrole) = some (.none) ∧ (r.toOption.map fun m => toValue m.authextra) = some (.dict []) := by decide +kernel

-- `test_parse_with_authid_and_authrole` (test_welcome.py:467-484)
example : On (Welcome.parse (.list [.int 2, .int 25631, .dict [(.str "roles", .dict [(.str "callee", .dict [])]), (.str "authid", .str "mahad"), (.str "authrole", .str "admin")]])) fun r => r.isOk = true ∧ (r.toOption.map fun m => toValue m.sessionId).map Value.typeName = some "int" ∧ (r.toOption.map fun m => toValue m.sessionId) = some (.int 25631) ∧ (r.toOption.map fun m => toValue m.roles).map Value.typeName = some "dict" ∧ (r.toOption.map fun m => toValue m.roles) = some (.dict [(.str "callee", .dict [])]) ∧ (r.toOption.map fun m => toValue m.authid).map Value.typeName = some "str" ∧ (r.toOption.map fun m => toValue m.authid) = some (.str "mahad") ∧ (r.toOption.map fun m => toValue m.authrole).map Value.typeName = some "str" ∧ (r.toOption.map fun m => toValue m.authrole) = some (.str "admin") ∧ (r.toOption.map fun m => toValue m.authmethod) = some (.none) ∧ (r.toOption.map fun m => toValue m.authextra) = some (.dict []) := by decide +kernel

-- `test_parse_with_authid_authrole_authmethod` (test_welcome.py:487-506)
example : On (Welcome.parse (.list [.int 2, .int 25631, .dict [(.str "roles", .dict [(.str "callee", .dict [])]), (.str "authid", .str "mahad"), (.str "authrole", .str "admin"), (.str "authmethod", .str "cryptosign")]])) fun r => r.isOk = true ∧ (r.toOption.map fun m => toValue m.sessionId).map Value.typeName = some "int" ∧ (r.toOption.map fun m => toValue m.sessionId) = some (.int 25631) ∧ (r.toOption.map fun m => toValue m.roles).map Value.typeName = some "dict" ∧ (r.toOption.map fun m => toValue m.roles) = some (.dict [(.str "callee", .dict [])]) ∧ (r.toOption.map fun m => toValue m.authid).map Value.typeName = some "str" ∧ (r.toOption.map fun m => toValue m.authid) = some (.str "mahad") ∧ (r.toOption.map fun m => toValue m.authrole).map Value.typeName = some "str" ∧ (r.toOption.map fun m => toValue m.authrole) = some (.str "admin") ∧ (r.toOption.map fun m => toValue m.authmethod).map Value.typeName = some "str" ∧ (r.toOption.map fun m => toValue m.authmethod) = some (.str "cryptosign") ∧ (r.toOption.map fun m => toValue m.authextra) = some (.dict []) := by decide +kernel

-- `test_parse_with_authid_authrole_authmethod_authextra` (test_welcome.py:509-537)
example : On (Welcome.parse (.list [.int 2, .int 25631, .dict [(.str "roles", .dict [(.str "callee", .dict [])]), (.str "authid", .str "mahad"), (.str "authrole", .str "admin"), (.str "authmethod", .str "cryptosign"), (.str "authextra", .dict [(.str "extra", .bool true)])]])) fun r => r.isOk = true ∧ (r.toOption.map fun m => toValue m.sessionId).map Value.typeName = some "int" ∧ (r.toOption.map fun m => toValue m.sessionId) = some (.int 25631) ∧ (r.toOption.map fun m => toValue m.roles).map Value.typeName = some "dict" ∧ (r.toOption.map fun m => toValue m.roles) = some (.dict [(.str "callee", .dict [])]) ∧ (r.toOption.map fun m => toValue m.authid).map Value.typeName = some "str" ∧ (r.toOption.map fun m => toValue m.authid) = some (.str "mahad") ∧ (r.toOption.map fun m => toValue m.authrole).map Value.typeName = some "str" ∧ (r.toOption.map fun m => toValue m.authrole) = some (.str "admin") ∧ (r.toOption.map fun m => toValue m.authmethod).map Value.typeName = some "str" ∧ (r.toOption.map fun m => toValue m.authmethod) = some (.str "cryptosign") ∧ (r.toOption.map fun m => toValue m.authextra).map Value.typeName = some "dict" ∧ (r.toOption.map fun m => toValue m.authextra).map size = some 1 ∧ (r.toOption.map fun m => toValue m.authextra) = some (.dict [(.str "extra", .bool true)]) := by decide +kernel

/-! ## `tests/messages/test_abort.py` -/

-- `test_parse_with_invalid_type` (test_abort.py:7-14)
example : On (Abort.parse (.str "msg")) fun r => text r = some "invalid message type str for ABORT, type should be a list" := by decide +kernel

-- `test_parse_with_invalid_min_length` (test_abort.py:17-22)
example : On (Abort.parse (.list [.str "foo"])) fun r => text r = some "invalid message length 1, must be at least 3" := by decide +kernel

-- `test_parse_with_invalid_max_length` (test_abort.py:25-30)
example : On (Abort.parse (.list [.int 1, .dict [], .str "io.xconn", .int 4, .int 5, .int 6])) fun r => text r = some "invalid message length 6, must be at most 5" := by decide +kernel

-- `test_parse_with_invalid_message_type` (test_abort.py:33-38)
example : On (Abort.parse (.list [.int 2, .dict [], .str "wamp.error.no_such_realm"])) fun r => text r = some "invalid message id 2 for ABORT, expected 3" := by decide +kernel

-- `test_parse_with_invalid_detail_type` (test_abort.py:41-46)
example : On (Abort.parse (.list [.int 3, .str "detail", .str "wamp.error.no_such_realm"])) fun r => text r = some "ABORT: value at index 1 must be of type 'dict' but was str" := by decide +kernel

-- `test_parse_with_reason_none` (test_abort.py:49-54)
example : On (Abort.parse (.list [.int 3, .dict [], .none])) fun r => text r = some "ABORT: value at index 2 must be of type 'string' but was NoneType" := by decide +kernel

-- `test_parse_with_invalid_reason_type` (test_abort.py:57-62)
example : On (Abort.parse (.list [.int 3, .dict [], .list [.str "wamp.error.no_such_realm"]])) fun r => text r = some "ABORT: value at index 2 must be of type 'string' but was list" := by decide +kernel

-- `test_parse_correctly` (test_abort.py:65-77)
example : On (Abort.parse (.list [.int 3, .dict [(.str "message", .str "The realm does not exist.")], .str "wamp.error.no_such_realm"])) fun r => r.isOk = true ∧ (r.toOption.map fun m => toValue m.details).map Value.typeName = some "dict" ∧ (r.toOption.map fun m => toValue m.details) = some (.dict [(.str "message", .str "The realm does not exist.")]) ∧ (r.toOption.map fun m => toValue m.reason).map Value.typeName = some "str" ∧ (r.toOption.map fun m => toValue m.reason) = some (.str "wamp.error.no_such_realm") := by decide +kernel

-- `test_marshal_with_empty_details` (test_abort.py:80-92)
example : On ((Message.abort { details := [], reason := "wamp.error.no_such_realm" }).marshal) fun r => r[0]?.map Value.typeName = some "int" ∧ r[0]? = some (.int 3) ∧ r[1]? = some (.dict []) ∧ r[2]?.map Value.typeName = some "str" ∧ r[2]? = some (.str "wamp.error.no_such_realm") := by decide +kernel

-- `test_marshal_with_details` (test_abort.py:95-109)
example : On ((Message.abort { details := [(.str "message", .str "The realm does not exist.")], reason := "wamp.error.no_such_realm" }).marshal) fun r => r[0]?.map Value.typeName = some "int" ∧ r[0]? = some (.int 3) ∧ r[1]?.map Value.typeName = some "dict" ∧ r[1]? = some (.dict [(.str "message", .str "The realm does not exist.")]) ∧ r[2]?.map Value.typeName = some "str" ∧ r[2]? = some (.str "wamp.error.no_such_realm") := by decide +kernel

/-! ## `tests/messages/test_challenge.py` -/

-- `test_parse_with_invalid_type` (test_challenge.py:7-15)
example : On (Challenge.parse (.str "msg")) fun r => text r = some "invalid message type str for CHALLENGE, type should be a list" := by decide +kernel

-- `test_parse_with_invalid_min_length` (test_challenge.py:18-23)
example : On (Challenge.parse (.list [.int 1])) fun r => text r = some "invalid message length 1, must be at least 3" := by decide +kernel

-- `test_parse_with_invalid_max_length` (test_challenge.py:26-31)
example : On (Challenge.parse (.list [.int 1, .int 3, .int 4, .int 5])) fun r => text r = some "invalid message length 4, must be at most 3" := by decide +kernel

-- `test_parse_with_invalid_message_type` (test_challenge.py:34-39)
example : On (Challenge.parse (.list [.int 2, .str "anonymous", .dict []])) fun r => text r = some "invalid message id 2 for CHALLENGE, expected 4" := by decide +kernel

-- `test_parse_with_invalid_authmethod_type` (test_challenge.py:42-47)
example : On (Challenge.parse (.list [.int 4, .list [.str "authmethod"], .dict []])) fun r => text r = some "CHALLENGE: value at index 1 must be of type 'string' but was list" := by decide +kernel

-- `test_parse_with_invalid_extra_type` (test_challenge.py:50-55)
example : On (Challenge.parse (.list [.int 4, .str "anonymous", .str "extra"])) fun r => text r = some "CHALLENGE: value at index 2 must be of type 'dict' but was str" := by decide +kernel

-- `test_parse_correctly` (test_challenge.py:58-70)
example : On (Challenge.parse (.list [.int 4, .str "cryptosign", .dict [(.str "channel_binding", .str "tls-unique")]])) fun r => r.isOk = true ∧ (r.toOption.map fun m => toValue m.authmethod).map Value.typeName = some "str" ∧ (r.toOption.map fun m => toValue m.authmethod) = some (.str "cryptosign") ∧ (r.toOption.map fun m => toValue m.extra).map Value.typeName = some "dict" ∧ (r.toOption.map fun m => toValue m.extra) = some (.dict [(.str "channel_binding", .str "tls-unique")]) := by decide +kernel

-- `test_marshal_without_extra` (test_challenge.py:73-85)
example : On ((Message.challenge { authmethod := "cryptosign" }).marshal) fun r => r[0]?.map Value.typeName = some "int" ∧ r[0]? = some (.int 4) ∧ r[1]?.map Value.typeName = some "str" ∧ r[1]? = some (.str "cryptosign") ∧ r[2]? = some (.dict []) := by decide +kernel

-- `test_marshal_with_extra` (test_challenge.py:88-102)
example : On ((Message.challenge { authmethod := "wamp-scram", extra := [(.str "iterations", .int 4096)] }).marshal) fun r => r[0]?.map Value.typeName = some "int" ∧ r[0]? = some (.int 4) ∧ r[1]?.map Value.typeName = some "str" ∧ r[1]? = some (.str "wamp-scram") ∧ r[2]?.map Value.typeName = some "dict" ∧ r[2]? = some (.dict [(.str "iterations", .int 4096)]) := by decide +kernel

/-! ## `tests/messages/test_authenticate.py` -/

-- `test_parse_with_invalid_type` (test_authenticate.py:7-15)
example : On (Authenticate.parse (.str "msg")) fun r => text r = some "invalid message type str for AUTHENTICATE, type should be a list" := by decide +kernel

-- `test_parse_with_invalid_min_length` (test_authenticate.py:18-23)
example : On (Authenticate.parse (.list [.int 5])) fun r => text r = some "invalid message length 1, must be at least 3" := by decide +kernel

-- `test_parse_with_invalid_max_length` (test_authenticate.py:26-31)
example : On (Authenticate.parse (.list [.int 5, .int 6, .int 4, .int 3])) fun r => text r = some "invalid message length 4, must be at most 3" := by decide +kernel

-- `test_parse_with_invalid_message_type` (test_authenticate.py:34-39)
example : On (Authenticate.parse (.list [.int 4, .str "signature", .dict []])) fun r => text r = some "invalid message id 4 for AUTHENTICATE, expected 5" := by decide +kernel

-- `test_parse_with_invalid_signature_type` (test_authenticate.py:42-47)
example : On (Authenticate.parse (.list [.int 5, .list [.str "signature"], .dict []])) fun r => text r = some "AUTHENTICATE: value at index 1 must be of type 'string' but was list" := by decide +kernel

-- `test_parse_with_invalid_extra_type` (test_authenticate.py:50-55)
example : On (Authenticate.parse (.list [.int 5, .str "signature", .str "extra"])) fun r => text r = some "AUTHENTICATE: value at index 2 must be of type 'dict' but was str" := by decide +kernel

-- `test_parse_correctly` (test_authenticate.py:58-70)
example : On (Authenticate.parse (.list [.int 5, .str "signature", .dict [(.str "channel_binding", .str "null")]])) fun r => r.isOk = true ∧ (r.toOption.map fun m => toValue m.signature).map Value.typeName = some "str" ∧ (r.toOption.map fun m => toValue m.signature) = some (.str "signature") ∧ (r.toOption.map fun m => toValue m.extra).map Value.typeName = some "dict" ∧ (r.toOption.map fun m => toValue m.extra) = some (.dict [(.str "channel_binding", .str "null")]) := by decide +kernel

-- `test_marshal_without_extra` (test_authenticate.py:73-85)
example : On ((Message.authenticate { signature := "signature" }).marshal) fun r => r[0]?.map Value.typeName = some "int" ∧ r[0]? = some (.int 5) ∧ r[1]?.map Value.typeName = some "str" ∧ r[1]? = some (.str "signature") ∧ r[2]? = some (.dict []) := by decide +kernel

-- `test_marshal_with_extra` (test_authenticate.py:88-102)
example : On ((Message.authenticate { signature := "signature", extra := [(.str "channel_binding", .str "null")] }).marshal) fun r => r[0]?.map Value.typeName = some "int" ∧ r[0]? = some (.int 5) ∧ r[1]?.map Value.typeName = some "str" ∧ r[1]? = some (.str "signature") ∧ r[2]?.map Value.typeName = some "dict" ∧ r[2]? = some (.dict [(.str "channel_binding", .str "null")]) := by decide +kernel

/-! ## `tests/messages/test_goodbye.py` -/

-- `test_parse_with_invalid_type` (test_goodbye.py:7-15)
example : On (Goodbye.parse (.str "msg")) fun r => text r = some "invalid message type str for GOODBYE, type should be a list" := by decide +kernel

-- `test_parse_with_invalid_min_length` (test_goodbye.py:18-23)
example : On (Goodbye.parse (.list [.str "foo"])) fun r => text r = some "invalid message length 1, must be at least 3" := by decide +kernel

-- `test_parse_with_invalid_max_length` (test_goodbye.py:26-31)
example : On (Goodbye.parse (.list [.str "foo", .int 1, .int 3, .int 23])) fun r => text r = some "invalid message length 4, must be at most 3" := by decide +kernel

-- `test_parse_with_invalid_message_type` (test_goodbye.py:34-39)
example : On (Goodbye.parse (.list [.int 3, .dict [], .str "wamp.close.close_realm"])) fun r => text r = some "invalid message id 3 for GOODBYE, expected 6" := by decide +kernel

-- `test_parse_with_invalid_detail_type` (test_goodbye.py:42-47)
example : On (Goodbye.parse (.list [.int 6, .str "detail", .str "wamp.close.close_realm"])) fun r => text r = some "GOODBYE: value at index 1 must be of type 'dict' but was str" := by decide +kernel

-- `test_parse_with_reason_none` (test_goodbye.py:50-55)
example : On (Goodbye.parse (.list [.int 6, .dict [], .none])) fun r => text r = some "GOODBYE: value at index 2 must be of type 'string' but was NoneType" := by decide +kernel

-- `test_parse_with_invalid_reason_type` (test_goodbye.py:58-63)
example : On (Goodbye.parse (.list [.int 6, .dict [], .list [.str "wamp.close.close_realm"]])) fun r => text r = some "GOODBYE: value at index 2 must be of type 'string' but was list" := by decide +kernel

-- `test_parse_correctly` (test_goodbye.py:66-78)
example : On (Goodbye.parse (.list [.int 6, .dict [(.str "message", .str "The host is shutting down now.")], .str "wamp.close.system_shutdown"])) fun r => r.isOk = true ∧ (r.toOption.map fun m => toValue m.details).map Value.typeName = some "dict" ∧ (r.toOption.map fun m => toValue m.details) = some (.dict [(.str "message", .str "The host is shutting down now.")]) ∧ (r.toOption.map fun m => toValue m.reason).map Value.typeName = some "str" ∧ (r.toOption.map fun m => toValue m.reason) = some (.str "wamp.close.system_shutdown") := by decide +kernel

-- `test_marshal_with_empty_details` (test_goodbye.py:81-93)
example : On ((Message.goodbye { details := [], reason := "wamp.close.system_shutdown" }).marshal) fun r => r[0]?.map Value.typeName = some "int" ∧ r[0]? = some (.int 6) ∧ r[1]? = some (.dict []) ∧ r[2]?.map Value.typeName = some "str" ∧ r[2]? = some (.str "wamp.close.system_shutdown") := by decide +kernel

-- `test_marshal_with_details` (test_goodbye.py:96-110)
example : On ((Message.goodbye { details := [(.str "message", .str "The host is shutting down now.")], reason := "wamp.close.system_shutdown" }).marshal) fun r => r[0]?.map Value.typeName = some "int" ∧ r[0]? = some (.int 6) ∧ r[1]?.map Value.typeName = some "dict" ∧ r[1]? = some (.dict [(.str "message", .str "The host is shutting down now.")]) ∧ r[2]?.map Value.typeName = some "str" ∧ r[2]? = some (.str "wamp.close.system_shutdown") := by decide +kernel

/-! ## `tests/messages/test_call.py` -/

-- `test_parse_with_invalid_type` (test_call.py:7-12)
example : On (Call.parse (.str "msg")) fun r => text r = some "invalid message type str for CALL, type should be a list" := by decide +kernel

-- `test_parse_with_invalid_min_length` (test_call.py:15-20)
example : On (Call.parse (.list [.str "foo"])) fun r => text r = some "invalid message length 1, must be at least 4" := by decide +kernel

-- `test_parse_with_invalid_max_length` (test_call.py:23-28)
example : On (Call.parse (.list [.str "foo", .int 1, .int 6, .int 3, .int 42, .int 24, .int 12])) fun r => text r = some "invalid message length 7, must be at most 6" := by decide +kernel

-- `test_parse_with_invalid_message_type` (test_call.py:31-37)
example : On (Call.parse (.list [.int 10, .int 7814135, .dict [], .str "io.xconn.ping"])) fun r => text r = some "invalid message id 10 for CALL, expected 48" := by decide +kernel

-- `test_parse_with_multiple_errors` (test_call.py:40-60)
example : On (Call.parse (.list [.int 48, .str "1", .int 23, .dict [(.str "procedure", .str "xconn")]])) fun r => text r = some "(\"CALL: value at index 1 must be of type 'int' but was str\", \"CALL: value at index 2 must be of type 'dict' but was int\", \"CALL: value at index 3 must be of type 'string' but was dict\")" := by decide +kernel

-- `test_parse_with_negative_request_id` (test_call.py:63-71)
example : On (Call.parse (.list [.int 48, .int (-1), .dict [], .str "io.xconn.ping"])) fun r => text r = some "CALL: value at index 1 must be between '1' and '9007199254740992' but was -1" := by decide +kernel

-- `test_parse_with_out_of_range_request_value` (test_call.py:74-84)
example : On (Call.parse (.list [.int 48, .int 9007199254740993, .dict [], .str "io.xconn.ping"])) fun r => text r = some "CALL: value at index 1 must be between '1' and '9007199254740992' but was 9007199254740993" := by decide +kernel

-- `test_parse_with_invalid_options_type` (test_call.py:87-92)
example : On (Call.parse (.list [.int 48, .int 367, .str "options", .str "io.xconn.ping"])) fun r => text r = some "CALL: value at index 2 must be of type 'dict' but was str" := by decide +kernel

-- `test_parse_with_procedure_none` (test_call.py:95-100)
example : On (Call.parse (.list [.int 48, .int 367, .dict [], .none])) fun r => text r = some "CALL: value at index 3 must be of type 'string' but was NoneType" := by decide +kernel

-- `test_parse_with_invalid_procedure_type` (test_call.py:103-109)
example : On (Call.parse (.list [.int 48, .int 367, .dict [], .dict [(.str "procedure", .str "io.xconn.ping")]])) fun r => text r = some "CALL: value at index 3 must be of type 'string' but was dict" := by decide +kernel

-- `test_parse_with_invalid_args_type` (test_call.py:112-117)
example : On (Call.parse (.list [.int 48, .int 367, .dict [], .str "io.xconn.ping", .str "args"])) fun r => text r = some "CALL: value at index 4 must be of type 'list' but was str" := by decide +kernel

-- `test_parse_with_invalid_kwargs_type` (test_call.py:120-125)
example : On (Call.parse (.list [.int 48, .int 367, .dict [], .str "io.xconn.ping", .list [], .list [.str "kwargs"]])) fun r => text r = some "CALL: value at index 5 must be of type 'dict' but was list" := by decide +kernel

-- `test_parse_correctly` (test_call.py:128-144)
example : On (Call.parse (.list [.int 48, .int 367, .dict [], .str "io.xconn.ping"])) fun r => r.isOk = true ∧ (r.toOption.map fun m => toValue m.requestId).map Value.typeName = some "int" ∧ (r.toOption.map fun m => toValue m.requestId) = some (.int 367) ∧ (r.toOption.map fun m => toValue m.procedure).map Value.typeName = some "str" ∧ (r.toOption.map fun m => toValue m.procedure) = some (.str "io.xconn.ping") ∧ (r.toOption.map fun m => toValue m.args) = some (.none) ∧ (r.toOption.map fun m => toValue m.kwargs) = some (.none) ∧ (r.toOption.map fun m => toValue m.options) = some (.dict []) := by decide +kernel

-- `test_parse_correctly_with_options` (test_call.py:147-166)
example : On (Call.parse (.list [.int 48, .int 367, .dict [(.str "caller_authid", .str "mahad")], .str "io.xconn.ping"])) fun r => r.isOk = true ∧ (r.toOption.map fun m => toValue m.requestId).map Value.typeName = some "int" ∧ (r.toOption.map fun m => toValue m.requestId) = some (.int 367) ∧ (r.toOption.map fun m => toValue m.procedure).map Value.typeName = some "str" ∧ (r.toOption.map fun m => toValue m.procedure) = some (.str "io.xconn.ping") ∧ (r.toOption.map fun m => toValue m.options).map Value.typeName = some "dict" ∧ (r.toOption.map fun m => toValue m.options) = some (.dict [(.str "caller_authid", .str "mahad")]) ∧ (r.toOption.map fun m => toValue m.args) = some (.none) ∧ (r.toOption.map fun m => toValue m.kwargs) = some (.none) := by decide +kernel

-- `test_parse_correctly_with_args` (test_call.py:169-188)
example : On (Call.parse (.list [.int 48, .int 367, .dict [], .str "io.xconn.ping", .list [.str "first", .int 2]])) fun r => r.isOk = true ∧ (r.toOption.map fun m => toValue m.requestId).map Value.typeName = some "int" ∧ (r.toOption.map fun m => toValue m.requestId) = some (.int 367) ∧ (r.toOption.map fun m => toValue m.procedure).map Value.typeName = some "str" ∧ (r.toOption.map fun m => toValue m.procedure) = some (.str "io.xconn.ping") ∧ (r.toOption.map fun m => toValue m.args).map Value.typeName = some "list" ∧ (r.toOption.map fun m => toValue m.args) = some (.list [.str "first", .int 2]) ∧ (r.toOption.map fun m => toValue m.options) = some (.dict []) ∧ (r.toOption.map fun m => toValue m.kwargs) = some (.none) := by decide +kernel

-- `test_parse_correctly_with_kwargs` (test_call.py:191-208)
example : On (Call.parse (.list [.int 48, .int 367, .dict [], .str "io.xconn.ping", .list [], .dict [(.str "name", .str "mahad")]])) fun r => r.isOk = true ∧ (r.toOption.map fun m => toValue m.requestId).map Value.typeName = some "int" ∧ (r.toOption.map fun m => toValue m.requestId) = some (.int 367) ∧ (r.toOption.map fun m => toValue m.procedure).map Value.typeName = some "str" ∧ (r.toOption.map fun m => toValue m.procedure) = some (.str "io.xconn.ping") ∧ (r.toOption.map fun m => toValue m.kwargs) = some (.dict [(.str "name", .str "mahad")]) ∧ (r.toOption.map fun m => toValue m.args) = some (.list []) ∧ (r.toOption.map fun m => toValue m.options) = some (.dict []) := by decide +kernel

-- `test_parse_correctly_with_all_options` (test_call.py:211-230)
example : On (Call.parse (.list [.int 48, .int 367, .dict [(.str "caller_authid", .str "mahad")], .str "io.xconn.ping", .list [.str "arg1"], .dict [(.str "name", .str "mahad")]])) fun r => r.isOk = true ∧ (r.toOption.map fun m => toValue m.requestId).map Value.typeName = some "int" ∧ (r.toOption.map fun m => toValue m.requestId) = some (.int 367) ∧ (r.toOption.map fun m => toValue m.procedure).map Value.typeName = some "str" ∧ (r.toOption.map fun m => toValue m.procedure) = some (.str "io.xconn.ping") ∧ (r.toOption.map fun m => toValue m.options) = some (.dict [(.str "caller_authid", .str "mahad")]) ∧ (r.toOption.map fun m => toValue m.args) = some (.list [.str "arg1"]) ∧ (r.toOption.map fun m => toValue m.kwargs) = some (.dict [(.str "name", .str "mahad")]) := by decide +kernel

-- `test_marshal` (test_call.py:233-248)
example : On ((Message.call { requestId := (.int 367), procedure := "io.xconn.hello" }).marshal) fun r => r.length = 4 ∧ r[0]?.map Value.typeName = some "int" ∧ r[0]? = some (.int 48) ∧ r[1]?.map Value.typeName = some "int" ∧ r[1]? = some (.int 367) ∧ r[2]? = some (.dict []) ∧ r[3]? = some (.str "io.xconn.hello") := by decide +kernel

-- `test_marshal_with_args` (test_call.py:251-268)
example : On ((Message.call { requestId := (.int 367), procedure := "io.xconn.hello", args := (some [.str "new"]) }).marshal) fun r => r.length = 5 ∧ r[0]?.map Value.typeName = some "int" ∧ r[0]? = some (.int 48) ∧ r[1]?.map Value.typeName = some "int" ∧ r[1]? = some (.int 367) ∧ r[2]? = some (.dict []) ∧ r[3]? = some (.str "io.xconn.hello") ∧ r[4]? = some (.list [.str "new"]) := by decide +kernel

-- `test_marshal_with_kwargs` (test_call.py:271-294)
example : On ((Message.call { requestId := (.int 167), procedure := "io.xconn.new", args := (some [.str "args"]), kwargs := (some [(.str "new", .str "value")]) }).marshal) fun r => r.length = 6 ∧ r[0]?.map Value.typeName = some "int" ∧ r[0]? = some (.int 48) ∧ r[1]?.map Value.typeName = some "int" ∧ r[1]? = some (.int 167) ∧ r[2]? = some (.dict []) ∧ r[3]? = some (.str "io.xconn.new") ∧ r[4]?.map Value.typeName = some "list" ∧ r[4]? = some (.list [.str "args"]) ∧ r[5]?.map Value.typeName = some "dict" ∧ r[5]? = some (.dict [(.str "new", .str "value")]) := by decide +kernel

-- `test_marshal_with_all_options` (test_call.py:297-322)
example : On ((Message.call { requestId := (.int 1677), procedure := "io.xconn.ping", args := (some [.str "arg1"]), kwargs := (some [(.str "key", .str "value")]), options_ := [(.str "receive_progress", .bool true)] }).marshal) fun r => r.length = 6 ∧ r[0]?.map Value.typeName = some "int" ∧ r[0]? = some (.int 48) ∧ r[1]?.map Value.typeName = some "int" ∧ r[1]? = some (.int 1677) ∧ r[2]?.map Value.typeName = some "dict" ∧ r[2]? = some (.dict [(.str "receive_progress", .bool true)]) ∧ r[3]? = some (.str "io.xconn.ping") ∧ r[4]?.map Value.typeName = some "list" ∧ r[4]? = some (.list [.str "arg1"]) ∧ r[5]?.map Value.typeName = some "dict" ∧ r[5]? = some (.dict [(.str "key", .str "value")]) := by decide +kernel

/-! ## `tests/messages/test_invocation.py` -/

-- `test_parse_with_invalid_type` (test_invocation.py:8-13)
example : On (Invocation.parse (.str "new message")) fun r => text r = some "invalid message type str for INVOCATION, type should be a list" := by decide +kernel

-- `test_parse_with_invalid_list_min_length` (test_invocation.py:16-21)
example : On (Invocation.parse (.list [.str "bar"])) fun r => text r = some "invalid message length 1, must be at least 4" := by decide +kernel

-- `test_parse_with_invalid_list_max_length` (test_invocation.py:24-29)
example : On (Invocation.parse (.list [.str "bar", .int 1, .int 3, .int 443, .int 23, .int 432, .int 2])) fun r => text r = some "invalid message length 7, must be at most 6" := by decide +kernel

-- `test_parse_with_invalid_message_type` (test_invocation.py:32-41)
example : On (Invocation.parse (.list [.int 9, .int 123, .int 456, .dict []])) fun r => text r = some "invalid message id 9 for INVOCATION, expected 68" := by decide +kernel

-- `test_parse_with_negative_request_id` (test_invocation.py:44-53)
example : On (Invocation.parse (.list [.int 68, .int (-1), .int 365, .dict []])) fun r => text r = some "INVOCATION: value at index 1 must be between '1' and '9007199254740992' but was -1" := by decide +kernel

-- `test_parse_with_out_of_range_request_value` (test_invocation.py:56-66)
example : On (Invocation.parse (.list [.int 68, .int 9007199254740993, .int 23, .dict []])) fun r => text r = some "INVOCATION: value at index 1 must be between '1' and '9007199254740992' but was 9007199254740993" := by decide +kernel

-- `test_parse_with_negative_registration_id` (test_invocation.py:69-78)
example : On (Invocation.parse (.list [.int 68, .int 17, .int (-39), .dict []])) fun r => text r = some "INVOCATION: value at index 2 must be between '1' and '9007199254740992' but was -39" := by decide +kernel

-- `test_parse_with_out_of_range_registration_value` (test_invocation.py:81-91)
example : On (Invocation.parse (.list [.int 68, .int 80, .int 9007199254740993, .dict []])) fun r => text r = some "INVOCATION: value at index 2 must be between '1' and '9007199254740992' but was 9007199254740993" := by decide +kernel

-- `test_parse_with_invalid_options_type` (test_invocation.py:94-102)
example : On (Invocation.parse (.list [.int 68, .int 80, .int 753, .list [.str "options"]])) fun r => text r = some "INVOCATION: value at index 3 must be of type 'dict' but was list" := by decide +kernel

-- `test_parse_with_invalid_args_type` (test_invocation.py:105-112)
example : On (Invocation.parse (.list [.int 68, .int 370, .int 98, .dict [], .str "args"])) fun r => text r = some "INVOCATION: value at index 4 must be of type 'list' but was str" := by decide +kernel

-- `test_parse_with_invalid_kwargs_type` (test_invocation.py:115-123)
example : On (Invocation.parse (.list [.int 68, .int 67, .int 147, .dict [], .list [], .list [.str "kwargs"]])) fun r => text r = some "INVOCATION: value at index 5 must be of type 'dict' but was list" := by decide +kernel

-- `test_parse_correctly` (test_invocation.py:126-142)
example : On (Invocation.parse (.list [.int 68, .int 74, .int 14, .dict []])) fun r => r.isOk = true ∧ (r.toOption.map fun m => toValue m.requestId).map Value.typeName = some "int" ∧ (r.toOption.map fun m => toValue m.requestId) = some (.int 74) ∧ (r.toOption.map fun m => toValue m.registrationId).map Value.typeName = some "int" ∧ (r.toOption.map fun m => toValue m.registrationId) = some (.int 14) ∧ (r.toOption.map fun m => toValue m.args) = some (.none) ∧ (r.toOption.map fun m => toValue m.kwargs) = some (.none) ∧ (r.toOption.map fun m => toValue m.details) = some (.dict []) := by decide +kernel

-- `test_parse_correctly_with_options` (test_invocation.py:145-162)
example : On (Invocation.parse (.list [.int 68, .int 741, .int 142, .dict [(.str "extra", .bool true)]])) fun r => r.isOk = true ∧ (r.toOption.map fun m => toValue m.requestId).map Value.typeName = some "int" ∧ (r.toOption.map fun m => toValue m.requestId) = some (.int 741) ∧ (r.toOption.map fun m => toValue m.registrationId).map Value.typeName = some "int" ∧ (r.toOption.map fun m => toValue m.registrationId) = some (.int 142) ∧ (r.toOption.map fun m => toValue m.details) = some (.dict [(.str "extra", .bool true)]) ∧ (r.toOption.map fun m => toValue m.args) = some (.none) ∧ (r.toOption.map fun m => toValue m.kwargs) = some (.none) := by decide +kernel

-- `test_parse_correctly_with_args` (test_invocation.py:165-184)
example : On (Invocation.parse (.list [.int 68, .int 741, .int 142, .dict [], .list [.int 1, .int 2]])) fun r => r.isOk = true ∧ (r.toOption.map fun m => toValue m.requestId).map Value.typeName = some "int" ∧ (r.toOption.map fun m => toValue m.requestId) = some (.int 741) ∧ (r.toOption.map fun m => toValue m.registrationId).map Value.typeName = some "int" ∧ (r.toOption.map fun m => toValue m.registrationId) = some (.int 142) ∧ (r.toOption.map fun m => toValue m.args).map Value.typeName = some "list" ∧ (r.toOption.map fun m => toValue m.args) = some (.list [.int 1, .int 2]) ∧ (r.toOption.map fun m => toValue m.kwargs) = some (.none) ∧ (r.toOption.map fun m => toValue m.details) = some (.dict []) := by decide +kernel

-- `test_parse_correctly_with_kwargs` (test_invocation.py:187-206)
example : On (Invocation.parse (.list [.int 68, .int 73, .int 12, .dict [], .list [], .dict [(.str "fruit", .str "grape")]])) fun r => r.isOk = true ∧ (r.toOption.map fun m => toValue m.requestId).map Value.typeName = some "int" ∧ (r.toOption.map fun m => toValue m.requestId) = some (.int 73) ∧ (r.toOption.map fun m => toValue m.registrationId).map Value.typeName = some "int" ∧ (r.toOption.map fun m => toValue m.registrationId) = some (.int 12) ∧ (r.toOption.map fun m => toValue m.kwargs).map Value.typeName = some "dict" ∧ (r.toOption.map fun m => toValue m.kwargs) = some (.dict [(.str "fruit", .str "grape")]) ∧ (r.toOption.map fun m => toValue m.args) = some (.list []) ∧ (r.toOption.map fun m => toValue m.details) = some (.dict []) := by decide +kernel

-- `test_parse_correctly_with_all_options` (test_invocation.py:209-233)
example : On (Invocation.parse (.list [.int 68, .int 673, .int 152, .dict [(.str "caller_authrole", .str "user")], .list [.str "1st"], .dict [(.str "fruit", .str "apple")]])) fun r => r.isOk = true ∧ (r.toOption.map fun m => toValue m.requestId).map Value.typeName = some "int" ∧ (r.toOption.map fun m => toValue m.requestId) = some (.int 673) ∧ (r.toOption.map fun m => toValue m.registrationId).map Value.typeName = some "int" ∧ (r.toOption.map fun m => toValue m.registrationId) = some (.int 152) ∧ (r.toOption.map fun m => toValue m.args).map Value.typeName = some "list" ∧ (r.toOption.map fun m => toValue m.args) = some (.list [.str "1st"]) ∧ (r.toOption.map fun m => toValue m.kwargs).map Value.typeName = some "dict" ∧ (r.toOption.map fun m => toValue m.kwargs) = some (.dict [(.str "fruit", .str "apple")]) ∧ (r.toOption.map fun m => toValue m.details).map Value.typeName = some "dict" ∧ (r.toOption.map fun m => toValue m.details) = some (.dict [(.str "caller_authrole", .str "user")]) := by decide +kernel

-- `test_marshal` (test_invocation.py:236-253)
example : On ((Message.invocation { requestId := (.int 612723), registrationId := (.int 171952) }).marshal) fun r => r.length = 4 ∧ r[0]?.map Value.typeName = some "int" ∧ r[0]? = some (.int 68) ∧ r[1]?.map Value.typeName = some "int" ∧ r[1]? = some (.int 612723) ∧ r[2]?.map Value.typeName = some "int" ∧ r[2]? = some (.int 171952) ∧ r[3]? = some (.dict []) := by decide +kernel

-- `test_marshal_with_args` (test_invocation.py:256-277)
example : On ((Message.invocation { requestId := (.int 61273), registrationId := (.int 17152), args := (some [.str "2nd"]) }).marshal) fun r => r.length = 5 ∧ r[0]?.map Value.typeName = some "int" ∧ r[0]? = some (.int 68) ∧ r[1]?.map Value.typeName = some "int" ∧ r[1]? = some (.int 61273) ∧ r[2]?.map Value.typeName = some "int" ∧ r[2]? = some (.int 17152) ∧ r[3]? = some (.dict []) ∧ r[4]?.map Value.typeName = some "list" ∧ r[4]? = some (.list [.str "2nd"]) := by decide +kernel

-- `test_marshal_with_kwargs` (test_invocation.py:280-305)
example : On ((Message.invocation { requestId := (.int 6173), registrationId := (.int 1152), args := (some [.str "2nd"]), kwargs := (some [(.str "fruit", .str "apple")]) }).marshal) fun r => r.length = 6 ∧ r[0]?.map Value.typeName = some "int" ∧ r[0]? = some (.int 68) ∧ r[1]?.map Value.typeName = some "int" ∧ r[1]? = some (.int 6173) ∧ r[2]?.map Value.typeName = some "int" ∧ r[2]? = some (.int 1152) ∧ r[3]? = some (.dict []) ∧ r[4]?.map Value.typeName = some "list" ∧ r[4]? = some (.list [.str "2nd"]) ∧ r[5]?.map Value.typeName = some "dict" ∧ r[5]? = some (.dict [(.str "fruit", .str "apple")]) := by decide +kernel

-- `test_marshal_with_all_options` (test_invocation.py:308-335)
example : On ((Message.invocation { requestId := (.int 673), registrationId := (.int 152), args := (some [.str "1st"]), kwargs := (some [(.str "fruit", .str "apple")]), details_ := [(.str "caller_authrole", .str "user")] }).marshal) fun r => r.length = 6 ∧ r[0]?.map Value.typeName = some "int" ∧ r[0]? = some (.int 68) ∧ r[1]?.map Value.typeName = some "int" ∧ r[1]? = some (.int 673) ∧ r[2]?.map Value.typeName = some "int" ∧ r[2]? = some (.int 152) ∧ r[3]?.map Value.typeName = some "dict" ∧ r[3]? = some (.dict [(.str "caller_authrole", .str "user")]) ∧ r[4]?.map Value.typeName = some "list" ∧ r[4]? = some (.list [.str "1st"]) ∧ r[5]?.map Value.typeName = some "dict" ∧ r[5]? = some (.dict [(.str "fruit", .str "apple")]) := by decide +kernel

/-! ## `tests/messages/test_yield.py` -/

-- `test_parse_with_invalid_type` (test_yield.py:7-15)
example : On (Yield.parse (.int 1)) fun r => text r = some "invalid message type int for YIELD, type should be a list" := by decide +kernel

-- `test_parse_with_invalid_list_min_length` (test_yield.py:18-23)
example : On (Yield.parse (.list [.str "bar"])) fun r => text r = some "invalid message length 1, must be at least 3" := by decide +kernel

-- `test_parse_with_invalid_list_max_length` (test_yield.py:26-31)
example : On (Yield.parse (.list [.str "bar", .int 12, .int 34, .int 211, .int 76, .int 90])) fun r => text r = some "invalid message length 6, must be at most 5" := by decide +kernel

-- `test_parse_with_invalid_message_type` (test_yield.py:34-40)
example : On (Yield.parse (.list [.int 11, .int 7814135, .dict []])) fun r => text r = some "invalid message id 11 for YIELD, expected 70" := by decide +kernel

-- `test_parse_with_negative_request_id` (test_yield.py:43-51)
example : On (Yield.parse (.list [.int 70, .int (-2), .dict []])) fun r => text r = some "YIELD: value at index 1 must be between '1' and '9007199254740992' but was -2" := by decide +kernel

-- `test_parse_with_out_of_range_request_value` (test_yield.py:54-64)
example : On (Yield.parse (.list [.int 70, .int 9007199254740993, .dict []])) fun r => text r = some "YIELD: value at index 1 must be between '1' and '9007199254740992' but was 9007199254740993" := by decide +kernel

-- `test_parse_with_invalid_options_type` (test_yield.py:67-72)
example : On (Yield.parse (.list [.int 70, .int 367, .str "options"])) fun r => text r = some "YIELD: value at index 2 must be of type 'dict' but was str" := by decide +kernel

-- `test_parse_with_invalid_args_type` (test_yield.py:75-80)
example : On (Yield.parse (.list [.int 70, .int 361, .dict [], .str "args"])) fun r => text r = some "YIELD: value at index 3 must be of type 'list' but was str" := by decide +kernel

-- `test_parse_with_invalid_kwargs_type` (test_yield.py:83-88)
example : On (Yield.parse (.list [.int 70, .int 367, .dict [], .list [], .list [.str "kwargs"]])) fun r => text r = some "YIELD: value at index 4 must be of type 'dict' but was list" := by decide +kernel

-- `test_parse_correctly` (test_yield.py:91-103)
example : On (Yield.parse (.list [.int 70, .int 367, .dict []])) fun r => r.isOk = true ∧ (r.toOption.map fun m => toValue m.requestId).map Value.typeName = some "int" ∧ (r.toOption.map fun m => toValue m.requestId) = some (.int 367) ∧ (r.toOption.map fun m => toValue m.args) = some (.none) ∧ (r.toOption.map fun m => toValue m.kwargs) = some (.none) ∧ (r.toOption.map fun m => toValue m.options) = some (.dict []) := by decide +kernel

-- `test_parse_correctly_with_options` (test_yield.py:106-121)
example : On (Yield.parse (.list [.int 70, .int 362, .dict [(.str "caller_authid", .str "mahad")]])) fun r => r.isOk = true ∧ (r.toOption.map fun m => toValue m.requestId).map Value.typeName = some "int" ∧ (r.toOption.map fun m => toValue m.requestId) = some (.int 362) ∧ (r.toOption.map fun m => toValue m.options).map Value.typeName = some "dict" ∧ (r.toOption.map fun m => toValue m.options) = some (.dict [(.str "caller_authid", .str "mahad")]) ∧ (r.toOption.map fun m => toValue m.args) = some (.none) ∧ (r.toOption.map fun m => toValue m.kwargs) = some (.none) := by decide +kernel

-- `test_parse_correctly_with_args` (test_yield.py:124-139)
example : On (Yield.parse (.list [.int 70, .int 367, .dict [], .list [.str "first", .int 2]])) fun r => r.isOk = true ∧ (r.toOption.map fun m => toValue m.requestId).map Value.typeName = some "int" ∧ (r.toOption.map fun m => toValue m.requestId) = some (.int 367) ∧ (r.toOption.map fun m => toValue m.args).map Value.typeName = some "list" ∧ (r.toOption.map fun m => toValue m.args) = some (.list [.str "first", .int 2]) ∧ (r.toOption.map fun m => toValue m.options) = some (.dict []) ∧ (r.toOption.map fun m => toValue m.kwargs) = some (.none) := by decide +kernel

-- `test_parse_correctly_with_kwargs` (test_yield.py:142-155)
example : On (Yield.parse (.list [.int 70, .int 367, .dict [], .list [], .dict [(.str "name", .str "mahad")]])) fun r => r.isOk = true ∧ (r.toOption.map fun m => toValue m.requestId).map Value.typeName = some "int" ∧ (r.toOption.map fun m => toValue m.requestId) = some (.int 367) ∧ (r.toOption.map fun m => toValue m.kwargs) = some (.dict [(.str "name", .str "mahad")]) ∧ (r.toOption.map fun m => toValue m.args) = some (.list []) ∧ (r.toOption.map fun m => toValue m.options) = some (.dict []) := by decide +kernel

-- `test_parse_correctly_with_all_options` (test_yield.py:158-173)
example : On (Yield.parse (.list [.int 70, .int 3671, .dict [(.str "caller_authid", .str "mahad")], .list [.str "arg1"], .dict [(.str "name", .str "mahad")]])) fun r => r.isOk = true ∧ (r.toOption.map fun m => toValue m.requestId).map Value.typeName = some "int" ∧ (r.toOption.map fun m => toValue m.requestId) = some (.int 3671) ∧ (r.toOption.map fun m => toValue m.options) = some (.dict [(.str "caller_authid", .str "mahad")]) ∧ (r.toOption.map fun m => toValue m.args) = some (.list [.str "arg1"]) ∧ (r.toOption.map fun m => toValue m.kwargs) = some (.dict [(.str "name", .str "mahad")]) := by decide +kernel

-- `test_marshal` (test_yield.py:176-189)
example : On ((Message.yield_ { requestId := (.int 367) }).marshal) fun r => r.length = 3 ∧ r[0]?.map Value.typeName = some "int" ∧ r[0]? = some (.int 70) ∧ r[1]?.map Value.typeName = some "int" ∧ r[1]? = some (.int 367) ∧ r[2]? = some (.dict []) := by decide +kernel

-- `test_marshal_with_args` (test_yield.py:192-208)
example : On ((Message.yield_ { requestId := (.int 367), args := (some [.str "new"]) }).marshal) fun r => r.length = 4 ∧ r[0]?.map Value.typeName = some "int" ∧ r[0]? = some (.int 70) ∧ r[1]?.map Value.typeName = some "int" ∧ r[1]? = some (.int 367) ∧ r[2]? = some (.dict []) ∧ r[3]?.map Value.typeName = some "list" ∧ r[3]? = some (.list [.str "new"]) := by decide +kernel

-- `test_marshal_with_kwargs` (test_yield.py:211-232)
example : On ((Message.yield_ { requestId := (.int 167), args := (some [.str "args"]), kwargs := (some [(.str "new", .str "value")]) }).marshal) fun r => r.length = 5 ∧ r[0]?.map Value.typeName = some "int" ∧ r[0]? = some (.int 70) ∧ r[1]?.map Value.typeName = some "int" ∧ r[1]? = some (.int 167) ∧ r[2]? = some (.dict []) ∧ r[3]?.map Value.typeName = some "list" ∧ r[3]? = some (.list [.str "args"]) ∧ r[4]?.map Value.typeName = some "dict" ∧ r[4]? = some (.dict [(.str "new", .str "value")]) := by decide +kernel

-- `test_marshal_with_all_options` (test_yield.py:235-258)
example : On ((Message.yield_ { requestId := (.int 1677), args := (some [.str "arg1"]), kwargs := (some [(.str "key", .str "value")]), options_ := [(.str "receive_progress", .bool true)] }).marshal) fun r => r.length = 5 ∧ r[0]?.map Value.typeName = some "int" ∧ r[0]? = some (.int 70) ∧ r[1]?.map Value.typeName = some "int" ∧ r[1]? = some (.int 1677) ∧ r[2]?.map Value.typeName = some "dict" ∧ r[2]? = some (.dict [(.str "receive_progress", .bool true)]) ∧ r[3]?.map Value.typeName = some "list" ∧ r[3]? = some (.list [.str "arg1"]) ∧ r[4]?.map Value.typeName = some "dict" ∧ r[4]? = some (.dict [(.str "key", .str "value")]) := by decide +kernel

/-! ## `tests/messages/test_result.py` -/

-- `test_parse_with_invalid_type` (test_result.py:7-15)
example : On (Result.parse (.str "msg")) fun r => text r = some "invalid message type str for RESULT, type should be a list" := by decide +kernel

-- `test_parse_with_invalid_list_min_length` (test_result.py:18-23)
example : On (Result.parse (.list [.str "foo"])) fun r => text r = some "invalid message length 1, must be at least 3" := by decide +kernel

-- `test_parse_with_invalid_list_max_length` (test_result.py:26-31)
example : On (Result.parse (.list [.str "foo", .int 12, .int 34, .int 1, .int 3, .int 2])) fun r => text r = some "invalid message length 6, must be at most 5" := by decide +kernel

-- `test_parse_with_invalid_message_type` (test_result.py:34-43)
example : On (Result.parse (.list [.int 11, .int 7814135, .dict []])) fun r => text r = some "invalid message id 11 for RESULT, expected 50" := by decide +kernel

-- `test_parse_with_negative_request_id` (test_result.py:46-54)
example : On (Result.parse (.list [.int 50, .int (-2), .dict []])) fun r => text r = some "RESULT: value at index 1 must be between '1' and '9007199254740992' but was -2" := by decide +kernel

-- `test_parse_with_out_of_range_request_value` (test_result.py:57-67)
example : On (Result.parse (.list [.int 50, .int 9007199254740993, .dict []])) fun r => text r = some "RESULT: value at index 1 must be between '1' and '9007199254740992' but was 9007199254740993" := by decide +kernel

-- `test_parse_with_invalid_details_type` (test_result.py:70-75)
example : On (Result.parse (.list [.int 50, .int 367, .str "details"])) fun r => text r = some "RESULT: value at index 2 must be of type 'dict' but was str" := by decide +kernel

-- `test_parse_with_invalid_args_type` (test_result.py:78-83)
example : On (Result.parse (.list [.int 50, .int 361, .dict [], .str "args"])) fun r => text r = some "RESULT: value at index 3 must be of type 'list' but was str" := by decide +kernel

-- `test_parse_with_invalid_kwargs_type` (test_result.py:86-91)
example : On (Result.parse (.list [.int 50, .int 367, .dict [], .list [], .list [.str "kwargs"]])) fun r => text r = some "RESULT: value at index 4 must be of type 'dict' but was list" := by decide +kernel

-- `test_parse_correctly` (test_result.py:94-106)
example : On (Result.parse (.list [.int 50, .int 367, .dict []])) fun r => r.isOk = true ∧ (r.toOption.map fun m => toValue m.requestId).map Value.typeName = some "int" ∧ (r.toOption.map fun m => toValue m.requestId) = some (.int 367) ∧ (r.toOption.map fun m => toValue m.args) = some (.none) ∧ (r.toOption.map fun m => toValue m.kwargs) = some (.none) ∧ (r.toOption.map fun m => toValue m.details) = some (.dict []) := by decide +kernel

-- `test_parse_correctly_with_details` (test_result.py:109-124)
example : On (Result.parse (.list [.int 50, .int 362, .dict [(.str "caller_authid", .str "mahad")]])) fun r => r.isOk = true ∧ (r.toOption.map fun m => toValue m.requestId).map Value.typeName = some "int" ∧ (r.toOption.map fun m => toValue m.requestId) = some (.int 362) ∧ (r.toOption.map fun m => toValue m.details).map Value.typeName = some "dict" ∧ (r.toOption.map fun m => toValue m.details) = some (.dict [(.str "caller_authid", .str "mahad")]) ∧ (r.toOption.map fun m => toValue m.args) = some (.none) ∧ (r.toOption.map fun m => toValue m.kwargs) = some (.none) := by decide +kernel

-- `test_parse_correctly_with_args` (test_result.py:127-142)
example : On (Result.parse (.list [.int 50, .int 367, .dict [], .list [.str "first", .int 2]])) fun r => r.isOk = true ∧ (r.toOption.map fun m => toValue m.requestId).map Value.typeName = some "int" ∧ (r.toOption.map fun m => toValue m.requestId) = some (.int 367) ∧ (r.toOption.map fun m => toValue m.args).map Value.typeName = some "list" ∧ (r.toOption.map fun m => toValue m.args) = some (.list [.str "first", .int 2]) ∧ (r.toOption.map fun m => toValue m.details) = some (.dict []) ∧ (r.toOption.map fun m => toValue m.kwargs) = some (.none) := by decide +kernel

-- `test_parse_correctly_with_kwargs` (test_result.py:145-158)
example : On (Result.parse (.list [.int 50, .int 367, .dict [], .list [], .dict [(.str "name", .str "mahad")]])) fun r => r.isOk = true ∧ (r.toOption.map fun m => toValue m.requestId).map Value.typeName = some "int" ∧ (r.toOption.map fun m => toValue m.requestId) = some (.int 367) ∧ (r.toOption.map fun m => toValue m.kwargs) = some (.dict [(.str "name", .str "mahad")]) ∧ (r.toOption.map fun m => toValue m.args) = some (.list []) ∧ (r.toOption.map fun m => toValue m.details) = some (.dict []) := by decide +kernel

-- `test_parse_correctly_with_all_details` (test_result.py:161-176)
example : On (Result.parse (.list [.int 50, .int 3671, .dict [(.str "caller_authid", .str "mahad")], .list [.str "arg1"], .dict [(.str "name", .str "mahad")]])) fun r => r.isOk = true ∧ (r.toOption.map fun m => toValue m.requestId).map Value.typeName = some "int" ∧ (r.toOption.map fun m => toValue m.requestId) = some (.int 3671) ∧ (r.toOption.map fun m => toValue m.details) = some (.dict [(.str "caller_authid", .str "mahad")]) ∧ (r.toOption.map fun m => toValue m.args) = some (.list [.str "arg1"]) ∧ (r.toOption.map fun m => toValue m.kwargs) = some (.dict [(.str "name", .str "mahad")]) := by decide +kernel

-- `test_marshal` (test_result.py:179-192)
example : On ((Message.result { requestId := (.int 367) }).marshal) fun r => r.length = 3 ∧ r[0]?.map Value.typeName = some "int" ∧ r[0]? = some (.int 50) ∧ r[1]?.map Value.typeName = some "int" ∧ r[1]? = some (.int 367) ∧ r[2]? = some (.dict []) := by decide +kernel

-- `test_marshal_with_args` (test_result.py:195-211)
example : On ((Message.result { requestId := (.int 367), args := (some [.str "new"]) }).marshal) fun r => r.length = 4 ∧ r[0]?.map Value.typeName = some "int" ∧ r[0]? = some (.int 50) ∧ r[1]?.map Value.typeName = some "int" ∧ r[1]? = some (.int 367) ∧ r[2]? = some (.dict []) ∧ r[3]?.map Value.typeName = some "list" ∧ r[3]? = some (.list [.str "new"]) := by decide +kernel

-- `test_marshal_with_kwargs` (test_result.py:214-235)
example : On ((Message.result { requestId := (.int 167), args := (some [.str "args"]), kwargs := (some [(.str "new", .str "value")]) }).marshal) fun r => r.length = 5 ∧ r[0]?.map Value.typeName = some "int" ∧ r[0]? = some (.int 50) ∧ r[1]?.map Value.typeName = some "int" ∧ r[1]? = some (.int 167) ∧ r[2]? = some (.dict []) ∧ r[3]?.map Value.typeName = some "list" ∧ r[3]? = some (.list [.str "args"]) ∧ r[4]?.map Value.typeName = some "dict" ∧ r[4]? = some (.dict [(.str "new", .str "value")]) := by decide +kernel

-- `test_marshal_with_all_details` (test_result.py:238-261)
example : On ((Message.result { requestId := (.int 1677), args := (some [.str "arg1"]), kwargs := (some [(.str "key", .str "value")]), details_ := [(.str "receive_progress", .bool true)] }).marshal) fun r => r.length = 5 ∧ r[0]?.map Value.typeName = some "int" ∧ r[0]? = some (.int 50) ∧ r[1]?.map Value.typeName = some "int" ∧ r[1]? = some (.int 1677) ∧ r[2]?.map Value.typeName = some "dict" ∧ r[2]? = some (.dict [(.str "receive_progress", .bool true)]) ∧ r[3]?.map Value.typeName = some "list" ∧ r[3]? = some (.list [.str "arg1"]) ∧ r[4]?.map Value.typeName = some "dict" ∧ r[4]? = some (.dict [(.str "key", .str "value")]) := by decide +kernel

/-! ## `tests/messages/test_util.py` -/

-- `test_validate_realm_or_raise_with_realm_none` (test_util.py:7-12)
example : On (Legacy.validateRealm (.none) "error") fun r => r = .error (.realm "realm cannot be null for error") := by decide +kernel

-- `test_validate_realm_or_raise_with_invalid_realm_type` (test_util.py:15-20)
example : On (Legacy.validateRealm (.int 1) "error") fun r => r = .error (.realm "realm must be of type string for error") := by decide +kernel

-- `test_validate_realm_or_raise_correctly` (test_util.py:23-26)
example : On (Legacy.validateRealm (.str "realm1") "") fun r => r = .ok (.str "realm1") := by decide +kernel

-- `test_validate_details_or_raise_with_invalid_detail_type` (test_util.py:29-34)
example : On (Legacy.validateDetails Value.pyStr (.list [.str "detail"]) "Ping") fun r => r = .error (.details "details must be of type dictionary for Ping") := by decide +kernel

-- `test_validate_details_or_raise_with_invalid_detail_type_and_custom_field` (test_util.py:37-43)
example : On (Legacy.validateDetails Value.pyStr (.list [.str "detail"]) "Ping" "options") fun r => r = .error (.details "options must be of type dictionary for Ping") := by decide +kernel

-- `test_validate_details_or_raise_with_invalid_detail_key_type` (test_util.py:46-51)
example : On (Legacy.validateDetails Value.pyStr (.dict [(.int 23, .str "v")]) "Ping") fun r => r = .error (.details "invalid type for key '23' in extra details for Ping") := by decide +kernel

-- `test_validate_details_or_raise_correctly` (test_util.py:55-58)
example : On (Legacy.validateDetails Value.pyStr (.dict []) "") fun r => r = .ok (.dict []) := by decide +kernel
example : On (Legacy.validateDetails Value.pyStr (.dict [(.str "authid", .str "mahad")]) "") fun r => r = .ok (.dict [(.str "authid", .str "mahad")]) := by decide +kernel

-- `test_validate_session_id_or_raise_with_invalid_session_type` (test_util.py:61-68)
example : On (Legacy.validateSessionId (.none) "Pong") fun r => r = .error (.protocol "session ID must be an integer for Pong") := by decide +kernel
example : On (Legacy.validateSessionId (.float ⟨0x3ff0000000000000⟩) "Pong") fun r => r = .error (.protocol "session ID must be an integer for Pong") := by decide +kernel
example : On (Legacy.validateSessionId (.dict [(.str "k", .str "v")]) "Pong") fun r => r = .error (.protocol "session ID must be an integer for Pong") := by decide +kernel

-- `test_validate_session_id_or_raise_with_out_of_range_session_id` (test_util.py:71-78)
example : On (Legacy.validateSessionId (.int (-10)) "Pong") fun r => r = .error (.protocol "invalid Session ID value for Pong") := by decide +kernel
example : On (Legacy.validateSessionId (.int 9007199254740993) "Pong") fun r => r = .error (.protocol "invalid Session ID value for Pong") := by decide +kernel

-- `test_validate_session_id_or_raise_with_out_of_range_session_id_and_custom_field` (test_util.py:81-87)
example : On (Legacy.validateSessionId (.int (-1)) "Pong" "request ID") fun r => r = .error (.protocol "invalid request ID value for Pong") := by decide +kernel

-- `test_validate_session_id_or_raise_correctly` (test_util.py:91-94)
example : On (Legacy.validateSessionId (.int 1) "") fun r => r = .ok (.int 1) := by decide +kernel
example : On (Legacy.validateSessionId (.int 30) "") fun r => r = .ok (.int 30) := by decide +kernel
example : On (Legacy.validateSessionId (.int 9007199254740992) "") fun r => r = .ok (.int 9007199254740992) := by decide +kernel

-- `test_validate_uri_or_raise_with_realm_none` (test_util.py:97-102)
example : On (Legacy.validateUri (.none) "error") fun r => r = .error (.uri "uri cannot be null for error") := by decide +kernel

-- `test_validate_uri_or_raise_with_invalid_uri_type` (test_util.py:105-110)
example : On (Legacy.validateUri (.int 3) "error") fun r => r = .error (.uri "uri must be of type string for error") := by decide +kernel

-- `test_validate_uri_or_raise_correctly` (test_util.py:113-116)
example : On (Legacy.validateUri (.str "wamp.close.goodbye_and_out") "") fun r => r = .ok (.str "wamp.close.goodbye_and_out") := by decide +kernel

-- `test_validate_procedure_or_raise_with_invalid_uri_type` (test_util.py:119-124)
example : On (Legacy.validateProcedure (.int 3) "error") fun r => r = .error (.uri "procedure must be of type string for error") := by decide +kernel

-- `test_validate_procedure_or_raise_correctly` (test_util.py:127-130)
example : On (Legacy.validateProcedure (.str "io.xconn.echo") "") fun r => r = .ok (.str "io.xconn.echo") := by decide +kernel

-- `test_sanity_check_with_invalid_message_type` (test_util.py:133-138)
example : On ((sanityCheck (.str "wamp message") 1 1 1 "hello").map fun _ => Value.none) fun r => text r = some "invalid message type str for hello, type should be a list" := by decide +kernel

-- `test_sanity_check_min_length_error` (test_util.py:141-147)
example : On ((sanityCheck (.list []) 1 1 1 "hello").map fun _ => Value.none) fun r => text r = some "invalid message length 0, must be at least 1" := by decide +kernel

-- `test_sanity_check_max_length_error` (test_util.py:150-156)
example : On ((sanityCheck (.list [.int 1, .str "io.xconn"]) 1 1 1 "hello").map fun _ => Value.none) fun r => text r = some "invalid message length 2, must be at most 1" := by decide +kernel

-- `test_sanity_with_invalid_message_id` (test_util.py:159-164)
example : On ((sanityCheck (.list [.int 2, .str "io.xconn", .dict []]) 3 3 1 "hello").map fun _ => Value.none) fun r => text r = some "invalid message id 2 for hello, expected 1" := by decide +kernel

-- `test_sanity_with_correct_message` (test_util.py:167-169)
example : On ((sanityCheck (.list [.int 1, .str "io.xconn", .dict []]) 3 3 1 "hello").map fun _ => Value.none) fun r => r.isOk = true := by decide +kernel

end Wamp.Conformance
