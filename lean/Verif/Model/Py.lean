import Verif.Model.Float

/-!
# Python values and exceptions

The Python runtime notions every modelled function uses: dynamically typed values, `isinstance`
tests, truthiness, `==` against an `int`, `type(x).__name__`, and exceptions as values.
This file models the language, not a file of `/repo`.
-/

namespace Wamp

/-- A Python object as far as this library can see it.  `dict` is an insertion-ordered association
list; `obj` stands for an instance of any other class (a `datetime` produced by cbor2, ...), of which the
library only ever looks at the class name and the truthiness. -/
inductive Value where
  | none
  | bool (b : Bool)
  | int (n : Int)
  | float (f : PyFloat)
  | str (s : String)
  | bytes (b : List UInt8)
  | list (xs : List Value)
  | dict (kvs : List (Value × Value))
  | obj (ty : String) (truthy : Bool) (id : Nat)
  deriving Repr, Inhabited

mutual
/-- Decidable structural equality of values (used by examples only). -/
def Value.decEq : (a b : Value) → Decidable (a = b)
  | .none, .none => isTrue rfl
  | .bool a, .bool b => if h : a = b then isTrue (h ▸ rfl) else isFalse (fun e => h (by injection e))
  | .int a, .int b => if h : a = b then isTrue (h ▸ rfl) else isFalse (fun e => h (by injection e))
  | .float a, .float b => if h : a = b then isTrue (h ▸ rfl) else isFalse (fun e => h (by injection e))
  | .str a, .str b => if h : a = b then isTrue (h ▸ rfl) else isFalse (fun e => h (by injection e))
  | .bytes a, .bytes b => if h : a = b then isTrue (h ▸ rfl) else isFalse (fun e => h (by injection e))
  | .list a, .list b =>
    match Value.decEqList a b with
    | isTrue h => isTrue (h ▸ rfl)
    | isFalse h => isFalse (fun e => h (by injection e))
  | .dict a, .dict b =>
    match Value.decEqDict a b with
    | isTrue h => isTrue (h ▸ rfl)
    | isFalse h => isFalse (fun e => h (by injection e))
  | .obj a b c, .obj a' b' c' =>
    if h : a = a' ∧ b = b' ∧ c = c' then isTrue (by obtain ⟨rfl, rfl, rfl⟩ := h; rfl)
    else isFalse (fun e => h (by injection e with h1 h2 h3; exact ⟨h1, h2, h3⟩))
  | .none, .bool _ | .none, .int _ | .none, .float _ | .none, .str _ | .none, .bytes _ | .none, .list _ | .none, .dict _ | .none, .obj .. => isFalse (by intro h; cases h)
  | .bool _, .none | .bool _, .int _ | .bool _, .float _ | .bool _, .str _ | .bool _, .bytes _ | .bool _, .list _ | .bool _, .dict _ | .bool _, .obj .. => isFalse (by intro h; cases h)
  | .int _, .none | .int _, .bool _ | .int _, .float _ | .int _, .str _ | .int _, .bytes _ | .int _, .list _ | .int _, .dict _ | .int _, .obj .. => isFalse (by intro h; cases h)
  | .float _, .none | .float _, .bool _ | .float _, .int _ | .float _, .str _ | .float _, .bytes _ | .float _, .list _ | .float _, .dict _ | .float _, .obj .. => isFalse (by intro h; cases h)
  | .str _, .none | .str _, .bool _ | .str _, .int _ | .str _, .float _ | .str _, .bytes _ | .str _, .list _ | .str _, .dict _ | .str _, .obj .. => isFalse (by intro h; cases h)
  | .bytes _, .none | .bytes _, .bool _ | .bytes _, .int _ | .bytes _, .float _ | .bytes _, .str _ | .bytes _, .list _ | .bytes _, .dict _ | .bytes _, .obj .. => isFalse (by intro h; cases h)
  | .list _, .none | .list _, .bool _ | .list _, .int _ | .list _, .float _ | .list _, .str _ | .list _, .bytes _ | .list _, .dict _ | .list _, .obj .. => isFalse (by intro h; cases h)
  | .dict _, .none | .dict _, .bool _ | .dict _, .int _ | .dict _, .float _ | .dict _, .str _ | .dict _, .bytes _ | .dict _, .list _ | .dict _, .obj .. => isFalse (by intro h; cases h)
  | .obj .., .none | .obj .., .bool _ | .obj .., .int _ | .obj .., .float _ | .obj .., .str _ | .obj .., .bytes _ | .obj .., .list _ | .obj .., .dict _ => isFalse (by intro h; cases h)
def Value.decEqList : (a b : List Value) → Decidable (a = b)
  | [], [] => isTrue rfl
  | [], _ :: _ => isFalse (by intro h; cases h)
  | _ :: _, [] => isFalse (by intro h; cases h)
  | x :: xs, y :: ys =>
    match Value.decEq x y, Value.decEqList xs ys with
    | isTrue h, isTrue h' => isTrue (h ▸ h' ▸ rfl)
    | isFalse h, _ => isFalse (fun e => h (by injection e))
    | _, isFalse h => isFalse (fun e => h (by injection e))
def Value.decEqDict : (a b : List (Value × Value)) → Decidable (a = b)
  | [], [] => isTrue rfl
  | [], _ :: _ => isFalse (by intro h; cases h)
  | _ :: _, [] => isFalse (by intro h; cases h)
  | (x, x') :: xs, (y, y') :: ys =>
    match Value.decEq x y, Value.decEq x' y', Value.decEqDict xs ys with
    | isTrue h, isTrue h', isTrue h'' => isTrue (h ▸ h' ▸ h'' ▸ rfl)
    | isFalse h, _, _ => isFalse (fun e => h (by injection e with e1 _; injection e1))
    | _, isFalse h, _ => isFalse (fun e => h (by injection e with e1 _; injection e1))
    | _, _, isFalse h => isFalse (fun e => h (by injection e))
end

instance : DecidableEq Value := Value.decEq

/-- A `dict` object whose keys and values are arbitrary. -/
abbrev PyDict := List (Value × Value)

/-- An object satisfying `isinstance(x, int)`: `bool` is a subclass of `int`. -/
inductive PyInt where
  | int (n : Int)
  | bool (b : Bool)
  deriving DecidableEq, Repr, Inhabited

namespace PyInt
/-- The numeric value; dict/set keys and comparisons only depend on it (`True == 1`, same hash). -/
def val : PyInt → Int
  | .int n => n
  | .bool b => if b then 1 else 0
/-- The object itself, as a value. -/
def toValue : PyInt → Value
  | .int n => .int n
  | .bool b => .bool b
end PyInt

instance : Coe Int PyInt := ⟨PyInt.int⟩
instance (n : Nat) : OfNat PyInt n := ⟨PyInt.int n⟩

namespace Value

/-- `isinstance(v, int)`. -/
def asInt? : Value → Option PyInt
  | .int n => some (.int n)
  | .bool b => some (.bool b)
  | _ => Option.none
/-- `isinstance(v, str)`. -/
def asStr? : Value → Option String
  | .str s => some s
  | _ => Option.none
/-- `isinstance(v, list)`. -/
def asList? : Value → Option (List Value)
  | .list l => some l
  | _ => Option.none
/-- `isinstance(v, dict)`. -/
def asDict? : Value → Option PyDict
  | .dict d => some d
  | _ => Option.none

/-- `type(v).__name__`. -/
def typeName : Value → String
  | .none => "NoneType"
  | .bool _ => "bool"
  | .int _ => "int"
  | .float _ => "float"
  | .str _ => "str"
  | .bytes _ => "bytes"
  | .list _ => "list"
  | .dict _ => "dict"
  | .obj ty _ _ => ty

/-- One character inside `repr` of a `str` quoted with `q`: backslash, the quote, `\\t`, `\\n`, `\\r` and the other
ASCII control characters are escaped.  Non-ASCII characters are taken to be printable. -/
def reprChar (q c : Char) : String :=
  if c = '\\' then "\\\\"
  else if c = q then "\\" ++ q.toString
  else if c = '\t' then "\\t"
  else if c = '\n' then "\\n"
  else if c = '\r' then "\\r"
  else if c.toNat < 32 ∨ c.toNat = 127 then
    "\\x" ++ (Nat.digitChar (c.toNat / 16)).toString ++ (Nat.digitChar (c.toNat % 16)).toString
  else c.toString

/-- `repr(s)` of a `str`: single quotes, unless the text has a single quote and no double quote. -/
def reprStr (s : String) : String :=
  let q : Char := if s.toList.contains '\'' ∧ ¬ s.toList.contains '"' then '"' else '\''
  q.toString ++ String.join (s.toList.map (reprChar q)) ++ q.toString

/-- `repr(b)` of `bytes`: every byte that is not printable ASCII is escaped. -/
def reprBytes (b : List UInt8) : String :=
  let q : Char := if b.contains 39 ∧ ¬ b.contains 34 then '"' else '\''
  "b" ++ q.toString ++ String.join (b.map fun x =>
    if 128 ≤ x.toNat then "\\x" ++ (Nat.digitChar (x.toNat / 16)).toString ++ (Nat.digitChar (x.toNat % 16)).toString
    else reprChar q (Char.ofNat x.toNat)) ++ q.toString

mutual
/-- `repr(v)`.  The text of an instance of another class is not modelled; it only ever ends up in the text of an exception. -/
def pyRepr : Value → String
  | .none => "None"
  | .bool b => if b then "True" else "False"
  | .int n => toString n
  | .float f => f.repr
  | .str s => reprStr s
  | .bytes b => reprBytes b
  | .list l => "[" ++ ", ".intercalate (pyReprList l) ++ "]"
  | .dict d => "{" ++ ", ".intercalate (pyReprDict d) ++ "}"
  | .obj ty _ _ => "<" ++ ty ++ ">"
def pyReprList : List Value → List String
  | [] => []
  | v :: rest => pyRepr v :: pyReprList rest
def pyReprDict : List (Value × Value) → List String
  | [] => []
  | (k, v) :: rest => (pyRepr k ++ ": " ++ pyRepr v) :: pyReprDict rest
end

/-- `str(v)`, as used by f-strings: a `str` is itself, anything else its `repr`. -/
def pyStr : Value → String
  | .str s => s
  | v => pyRepr v

/-- `str(type(v))` (the module of a class outside `builtins` is part of the name `ty`). -/
def pyType (v : Value) : String := "<class '" ++ v.typeName ++ "'>"

/-- `bool(v)`, as used by `if v:`. -/
def truthy : Value → Bool
  | .none => false
  | .bool b => b
  | .int n => n ≠ 0
  | .float f => f.truthy
  | .str s => s ≠ ""
  | .bytes b => !b.isEmpty
  | .list l => !l.isEmpty
  | .dict d => !d.isEmpty
  | .obj _ t _ => t

/-- `v == n` for an `int` literal `n` (an `obj` is taken to differ from every int). -/
def eqInt (v : Value) (n : Int) : Bool :=
  match v with
  | .int m => m = n
  | .bool b => (PyInt.bool b).val = n
  | .float f => f.intVal? = some n
  | _ => false

end Value

namespace PyDict
/-- `d.get(key)` for a `str` key: a string only equals a string. `none` = key absent. -/
def get? (d : PyDict) (key : String) : Option Value :=
  match d with
  | [] => .none
  | (.str k, v) :: rest => if k = key then some v else get? rest key
  | _ :: rest => get? rest key
/-- `d.get(key, None)`: absent and `None` are the same thing. -/
def getD (d : PyDict) (key : String) : Value := (get? d key).getD .none
/-- `bool(d.get(key, False))`. -/
def flag (d : PyDict) (key : String) : Bool :=
  match get? d key with
  | some v => v.truthy
  | .none => false
/-- `d[key] = v` for a `str` key: overwrite in place, else append. -/
def set (d : PyDict) (key : String) (v : Value) : PyDict :=
  match d with
  | [] => [(.str key, v)]
  | (.str k, w) :: rest => if k = key then (.str k, v) :: rest else (.str k, w) :: set rest key v
  | kv :: rest => kv :: set rest key v
end PyDict

/-- One entry of the `ValueError(*errors)` raised by field validation
(`wampproto/messages/exceptions.py:3-7` and the two role messages of `util.py:310-320`); kept as data,
the text is `FieldError.text` (`Model/Util.lean`). -/
inductive FieldError where
  /-- `InvalidDataTypeError.format(message, index, expected_type, actual_type)` -/
  | dataType (message : String) (index : Nat) (expected actual : String)
  /-- `InvalidRangeError.format(message, index, MIN_ID, MAX_ID, actual)` -/
  | range (message : String) (index : Nat) (start stop : Int) (actual : PyInt)
  /-- `InvalidDetailError.format(message, index, key, expected_type, actual_type)` -/
  | detail (message : String) (index : Nat) (key expected actual : String)
  /-- "... for roles key must be in [...] but was empty" -/
  | rolesEmpty (message : String) (index : Nat)
  /-- "... for roles key must be in [...] but was {role}" -/
  | rolesInvalid (message : String) (index : Nat) (role : Value)
  deriving DecidableEq, Repr

/-- Exceptions as values.  The class matters to callers; the text is kept where the code gives one. -/
inductive Exc where
  | valueError (msg : String)
  /-- `ValueError(*errors)` from `validate_message` -/
  | invalid (errors : List FieldError)
  | typeError (msg : String)
  | keyError
  | indexError
  | attributeError
  | recursionError
  | notImplementedError
  /-- `binascii.Error` (a subclass of `ValueError`) -/
  | binasciiError
  /-- `wampproto.exception.ApplicationError(message, args, kwargs)` -/
  | applicationError (message : String) (args : Option (List Value)) (kwargs : Option PyDict)
  /-- whatever an external library (codec, nacl, user authenticator) raised -/
  | external (what : String)
  /-- Not a Python outcome: `None` would be stored where the model has a non-optional field.
      Proved unreachable (`Props/Wire.lean`). -/
  | untyped
  deriving DecidableEq, Repr

/-- `isinstance(e, ValueError)`. -/
def Exc.isValueError : Exc → Bool
  | .valueError _ | .invalid _ | .binasciiError => true
  | _ => false

deriving instance DecidableEq for Except

end Wamp
