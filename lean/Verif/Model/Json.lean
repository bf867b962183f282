import Verif.Model.Bytes
import Verif.Model.Encoding

/-!
# The codec of `JSONSerializer` — `json.dumps` / `json.loads`

`serializers/json.py:11,14` call the `json` module of Python's standard library, `payload.py:82,89` do the same and convert
to UTF-8 and from the encodings of `Model/Encoding.lean`.  This file models that module as far as WAMP messages need it, with the default options the calls use
(`ensure_ascii`, separators `", "` and `": "`, `allow_nan`, strict strings), working on characters.

Simplifications: a string with a lone surrogate is not a `Value`, so `loads` raises on it; Python's limits on nesting depth and
on the number of digits of an integer are not modelled.
-/

namespace Wamp.Json

/-! ## Writing -/

/-- A digit of a number below 16 (`json/encoder.py`, `'\\u{0:04x}'`) -/
def hexDigit (n : Nat) : Char := Char.ofNat (if n < 10 then 48 + n else 87 + n)

/-- `'{0:04x}'.format(n)` -/
def hex4 (n : Nat) : List Char := [hexDigit (n / 4096 % 16), hexDigit (n / 256 % 16), hexDigit (n / 16 % 16), hexDigit (n % 16)]

/-- `\uXXXX` -/
def unicode (n : Nat) : List Char := '\\' :: 'u' :: hex4 n

/-- A character of a string (`py_encode_basestring_ascii`) -/
def escape (c : Char) : List Char :=
  if c = '"' then ['\\', '"']
  else if c = '\\' then ['\\', '\\']
  else if c = '\n' then ['\\', 'n']
  else if c = '\r' then ['\\', 'r']
  else if c = '\t' then ['\\', 't']
  else if c.toNat = 12 then ['\\', 'f']
  else if c.toNat = 8 then ['\\', 'b']
  else if 32 ≤ c.toNat ∧ c.toNat ≤ 126 then [c]
  else if c.toNat < 0x10000 then unicode c.toNat
  else unicode (0xd800 + (c.toNat - 0x10000) / 1024) ++ unicode (0xdc00 + (c.toNat - 0x10000) % 1024)

/-- A string literal -/
def quote (s : List Char) : List Char := '"' :: (s.flatMap escape ++ ['"'])

/-- `int.__repr__` -/
def integer : Int → List Char
  | .ofNat n => decimal n
  | .negSucc n => '-' :: decimal (n + 1)

/-- `floatstr` -/
def floatText (f : PyFloat) : List Char :=
  if f.isNaN then "NaN".toList
  else if f.expo = 2047 then (if f.sign then "-Infinity".toList else "Infinity".toList)
  else f.finiteText

/-- A key of a dict: `json.dumps` turns `None`, booleans and numbers into strings. -/
def keyText : Value → List Char
  | .str s => s.toList
  | .none => "null".toList
  | .bool true => "true".toList
  | .bool false => "false".toList
  | .int n => integer n
  | .float f => floatText f
  | _ => []

mutual
/-- The text of a value (`_make_iterencode`) that `writable` accepts -/
def text : Value → List Char
  | .none => "null".toList
  | .bool true => "true".toList
  | .bool false => "false".toList
  | .int n => integer n
  | .float f => floatText f
  | .str s => quote s.toList
  | .list [] => ['[', ']']
  | .list (v :: l) => '[' :: (text v ++ textTail l)
  | .dict [] => ['{', '}']
  | .dict ((k, v) :: d) => '{' :: (quote (keyText k) ++ (':' :: ' ' :: (text v ++ textMembers d)))
  | .bytes _ | .obj .. => []
/-- The rest of a list -/
def textTail : List Value → List Char
  | [] => [']']
  | v :: l => ',' :: ' ' :: (text v ++ textTail l)
/-- The rest of a dict -/
def textMembers : List (Value × Value) → List Char
  | [] => ['}']
  | (k, v) :: d => ',' :: ' ' :: (quote (keyText k) ++ (':' :: ' ' :: (text v ++ textMembers d)))
end

/-- A key `json.dumps` accepts -/
def keyWritable : Value → Except Exc Unit
  | .str _ | .none | .bool _ | .int _ | .float _ => .ok ()
  | v => .error (.typeError s!"keys must be str, int, float, bool or None, not {v.typeName}")

mutual
/-- Whether `json.dumps` has a text for the value -/
def writable : Value → Except Exc Unit
  | .none | .bool _ | .int _ | .float _ | .str _ => .ok ()
  | .list l => writableList l
  | .dict d => writableDict d
  | v => .error (.typeError s!"Object of type {v.typeName} is not JSON serializable")
/-- Every element -/
def writableList : List Value → Except Exc Unit
  | [] => .ok ()
  | v :: l => do writable v; writableList l
/-- Every member -/
def writableDict : List (Value × Value) → Except Exc Unit
  | [] => .ok ()
  | (k, v) :: d => do keyWritable k; writable v; writableDict d
end

/-- `json.dumps(v)` (`json.py:11`) -/
def dumps (v : Value) : Except Exc String := do
  writable v
  .ok (String.ofList (text v))

/-! ## Reading -/

/-- `json.JSONDecodeError`, a `ValueError` -/
def decodeError {α : Type} : Except Exc α := .error (.valueError "json")

/-- White space (`json/decoder.py`) -/
def isSpace (c : Char) : Bool := c = ' ' || c = '\t' || c = '\n' || c = '\r'

/-- Skip white space. -/
def skip (cs : List Char) : List Char := cs.dropWhile isSpace

/-- A digit -/
def isDigit (c : Char) : Bool := 48 ≤ c.toNat && c.toNat ≤ 57

/-- The value of a hexadecimal digit -/
def hexVal (c : Char) : Option Nat :=
  if 48 ≤ c.toNat ∧ c.toNat ≤ 57 then some (c.toNat - 48)
  else if 97 ≤ c.toNat ∧ c.toNat ≤ 102 then some (c.toNat - 87)
  else if 65 ≤ c.toNat ∧ c.toNat ≤ 70 then some (c.toNat - 55)
  else none

/-- `int(esc, 16)` of four digits -/
def hexVal4 (a b c d : Char) : Option Nat := do
  let a ← hexVal a
  let b ← hexVal b
  let c ← hexVal c
  let d ← hexVal d
  some (((a * 16 + b) * 16 + c) * 16 + d)

/-- `BACKSLASH` (`json/decoder.py`) -/
def unescape (c : Char) : Option Nat :=
  if c = '"' then some 34
  else if c = '\\' then some 92
  else if c = '/' then some 47
  else if c = 'b' then some 8
  else if c = 'f' then some 12
  else if c = 'n' then some 10
  else if c = 'r' then some 13
  else if c = 't' then some 9
  else none

/-- `py_scanstring`: the code units up to the closing quote, and what follows it -/
def units : List Char → Option (List Nat × List Char)
  | [] => none
  | c :: r =>
    if c = '"' then some ([], r)
    else if c = '\\' then
      match r with
      | [] => none
      | e :: r =>
        if e = 'u' then
          match r with
          | a :: b :: c :: d :: r =>
            match hexVal4 a b c d, units r with
            | some n, some (us, rest) => some (n :: us, rest)
            | _, _ => none
          | _ => none
        else
          match unescape e, units r with
          | some n, some (us, rest) => some (n :: us, rest)
          | _, _ => none
    else if c.toNat < 32 then none
    else
      match units r with
      | some (us, rest) => some (c.toNat :: us, rest)
      | none => none

/-- Join surrogate pairs. -/
def join : List Nat → Option (List Char)
  | [] => some []
  | n :: r =>
    if 0xd800 ≤ n ∧ n < 0xdc00 then
      match r with
      | [] => none
      | m :: r =>
        if 0xdc00 ≤ m ∧ m < 0xe000 then (join r).map (Char.ofNat (0x10000 + (n - 0xd800) * 1024 + (m - 0xdc00)) :: ·)
        else none
    else if 0xdc00 ≤ n ∧ n < 0xe000 then none
    else (join r).map (Char.ofNat n :: ·)

/-- The rest of a string literal -/
def string (cs : List Char) : Except Exc (String × List Char) :=
  match units cs with
  | none => decodeError
  | some (us, rest) =>
    match join us with
    | none => decodeError
    | some s => .ok (String.ofList s, rest)

/-- The value of digits -/
def digitsVal (ds : List Char) : Nat := ds.foldl (fun n c => n * 10 + (c.toNat - 48)) 0

/-- A natural number without leading zeros, and what follows -/
def natural : List Char → Option (Nat × List Char)
  | [] => none
  | c :: r =>
    if c = '0' then some (0, r)
    else if isDigit c then some (digitsVal ((c :: r).takeWhile isDigit), (c :: r).dropWhile isDigit)
    else none

/-- `(\.[0-9]+)?`: the digits, if any, and what follows -/
def fraction : List Char → List Char × List Char
  | [] => ([], [])
  | c :: r => if c = '.' ∧ r.takeWhile isDigit ≠ [] then (r.takeWhile isDigit, r.dropWhile isDigit) else ([], c :: r)

/-- `[-+]?` -/
def sign : List Char → Bool × List Char
  | [] => (false, [])
  | c :: r => if c = '-' then (true, r) else if c = '+' then (false, r) else (false, c :: r)

/-- `([eE][-+]?[0-9]+)?` -/
def exponent : List Char → Option Int × List Char
  | [] => (none, [])
  | c :: r =>
    if (c = 'e' ∨ c = 'E') ∧ (sign r).2.takeWhile isDigit ≠ [] then
      (some (if (sign r).1 then -(digitsVal ((sign r).2.takeWhile isDigit) : Int) else digitsVal ((sign r).2.takeWhile isDigit)),
        (sign r).2.dropWhile isDigit)
    else (none, c :: r)

/-- What follows `-?(0|[1-9][0-9]*)` in a number: an integer, or a float if there is a fraction or an exponent -/
def numberRest (neg : Bool) (n : Nat) (rest : List Char) : Value × List Char :=
  let fr := fraction rest
  let ex := exponent fr.2
  if fr.1 = [] ∧ ex.1 = none then (.int (if neg then -(n : Int) else n), ex.2)
  else (.float (PyFloat.ofDecimal neg (n * 10 ^ fr.1.length + digitsVal fr.1) (ex.1.getD 0 - fr.1.length)), ex.2)

/-- `_match_number` -/
def number (cs : List Char) : Except Exc (Value × List Char) :=
  let (neg, cs) : Bool × List Char := match cs with
    | c :: r => if c = '-' then (true, r) else (false, cs)
    | [] => (false, [])
  match natural cs with
  | none => decodeError
  | some (n, rest) => .ok (numberRest neg n rest)

/-- `JSONArray` after the opening bracket, given how to read a value -/
def elements (value : List Char → Except Exc (Value × List Char)) : Nat → List Char → Except Exc (List Value × List Char)
  | 0, _ => .error .recursionError
  | n + 1, cs => do
    let (v, r) ← value cs
    match skip r with
    | c :: r =>
      if c = ',' then do
        let (l, rest) ← elements value n (skip r)
        .ok (v :: l, rest)
      else if c = ']' then .ok ([v], r)
      else decodeError
    | [] => decodeError

/-- `JSONObject` after the opening brace, given how to read a value -/
def members (value : List Char → Except Exc (Value × List Char)) :
    Nat → List Char → Except Exc (List (String × Value) × List Char)
  | 0, _ => .error .recursionError
  | n + 1, cs =>
    match cs with
    | [] => decodeError
    | q :: r =>
      if q = '"' then do
        let (k, r) ← string r
        match skip r with
        | c :: r =>
          if c = ':' then do
            let (v, r) ← value (skip r)
            match skip r with
            | c :: r =>
              if c = ',' then do
                let (l, rest) ← members value n (skip r)
                .ok ((k, v) :: l, rest)
              else if c = '}' then .ok ([(k, v)], r)
              else decodeError
            | [] => decodeError
          else decodeError
        | [] => decodeError
      else decodeError

/-- `_scan_once` -/
def value : Nat → List Char → Except Exc (Value × List Char)
  | 0, _ => .error .recursionError
  | _ + 1, [] => decodeError
  | f + 1, c :: r =>
    if c = '"' then do
      let (s, rest) ← string r
      .ok (.str s, rest)
    else if c = '{' then
      match skip r with
      | [] => decodeError
      | c :: r' =>
        if c = '}' then .ok (.dict [], r')
        else do
          let (l, rest) ← members (value f) (r.length + 1) (c :: r')
          .ok (.dict (l.foldl (fun d kv => PyDict.set d kv.1 kv.2) []), rest)
    else if c = '[' then
      match skip r with
      | [] => decodeError
      | c :: r' =>
        if c = ']' then .ok (.list [], r')
        else do
          let (l, rest) ← elements (value f) (r.length + 1) (c :: r')
          .ok (.list l, rest)
    else if c = 'n' then
      match r with
      | 'u' :: 'l' :: 'l' :: rest => .ok (.none, rest)
      | _ => decodeError
    else if c = 't' then
      match r with
      | 'r' :: 'u' :: 'e' :: rest => .ok (.bool true, rest)
      | _ => decodeError
    else if c = 'f' then
      match r with
      | 'a' :: 'l' :: 's' :: 'e' :: rest => .ok (.bool false, rest)
      | _ => decodeError
    else if c = 'N' then
      match r with
      | 'a' :: 'N' :: rest => .ok (.float PyFloat.nan, rest)
      | _ => decodeError
    else if c = 'I' then
      match r with
      | 'n' :: 'f' :: 'i' :: 'n' :: 'i' :: 't' :: 'y' :: rest => .ok (.float PyFloat.posInf, rest)
      | _ => decodeError
    else if c = '-' then
      match r with
      | 'I' :: 'n' :: 'f' :: 'i' :: 'n' :: 'i' :: 't' :: 'y' :: rest => .ok (.float PyFloat.negInf, rest)
      | _ => number (c :: r)
    else number (c :: r)

/-- `json.loads(s)` (`json.py:14`) -/
def loads (s : String) : Except Exc Value := do
  let (v, rest) ← value (s.toList.length + 1) (skip s.toList)
  match skip rest with
  | [] => .ok v
  | _ => decodeError

/-- The codec -/
def codec : Codec String := ⟨dumps, loads⟩

/-- `json.dumps(v).encode()` (`payload.py:82`) -/
def dumpsBytes (v : Value) : Except Exc Bytes := (dumps v).map utf8

/-- `json.loads(b)` of `bytes` (`payload.py:89`) -/
def loadsBytes (b : Bytes) : Except Exc Value :=
  match decodeWith (detectEncoding b) b with
  | some s => loads s
  | none => .error (.valueError "decode")

/-- The codec of JSON payloads -/
def payloadCodec : Codec Bytes := ⟨dumpsBytes, loadsBytes⟩

end Wamp.Json
