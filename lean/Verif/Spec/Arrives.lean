import Verif.Spec.Formats

/-!
# What the receiver reads

Written for any value a serializer accepts, not only for those that arrive unchanged: JSON turns the keys of dicts into strings,
so that entries can collapse; MessagePack refuses to read keys other than strings and bytes; JSON and CBOR know one NaN.
-/

namespace Wamp.Spec

/-- The usual NaN in place of any NaN -/
def usual (x : PyFloat) : PyFloat := if x.isNaN then ⟨0x7ff8000000000000#64⟩ else x

/-- The value the last entry with the key gives, if there is one -/
def lastOf (k : Value) : List (Value × Value) → Option Value
  | [] => none
  | (k', v) :: l => if (lastOf k l).isSome then lastOf k l else if k' = k then some v else none

/-- Entries with the same key collapse: the first says where it stands, the last says what it holds. -/
def merge : List (Value × Value) → List (Value × Value)
  | [] => []
  | (k, v) :: l => (k, (lastOf k l).getD v) :: merge (l.filter fun kv => kv.1 ≠ k)
termination_by l => l.length
decreasing_by simp only [List.length_cons, List.length_unattach]; exact Nat.lt_succ_of_le (by simpa using List.length_filter_le (fun x : { x // x ∈ l } => decide (x.1.1 ≠ k)) l.attach)

/-- A key that has a name in JSON -/
def Nameable : Value → Prop
  | .str _ | .none | .bool _ | .int _ | .float _ => True
  | .bytes _ | .list _ | .dict _ | .obj .. => False

/-- Its name: a string is its own, an integer has its digits, a float what Python prints for it -/
def nameOf : Value → String
  | .str s => s
  | .none => "null"
  | .bool b => if b then "true" else "false"
  | .int n => toString n
  | .float x => String.ofList (Json.floatText x)
  | .bytes _ | .list _ | .dict _ | .obj .. => ""

mutual
/-- A value JSON has a text for -/
def Jsonable : Value → Prop
  | .none | .bool _ | .int _ | .float _ | .str _ => True
  | .bytes _ | .obj .. => False
  | .list l => JsonableList l
  | .dict d => JsonableDict d
/-- Every element -/
def JsonableList : List Value → Prop
  | [] => True
  | v :: l => Jsonable v ∧ JsonableList l
/-- Every entry -/
def JsonableDict : List (Value × Value) → Prop
  | [] => True
  | (k, v) :: d => Nameable k ∧ Jsonable v ∧ JsonableDict d
end

mutual
/-- What a receiver reads if a value is sent with JSON: names for keys, one NaN -/
def jsonArrives : Value → Value
  | .float x => .float (usual x)
  | .list l => .list (jsonArrivesList l)
  | .dict d => .dict (merge (jsonArrivesDict d))
  | .none => .none
  | .bool b => .bool b
  | .int n => .int n
  | .str s => .str s
  | .bytes b => .bytes b
  | .obj ty i t => .obj ty i t
/-- Every element -/
def jsonArrivesList : List Value → List Value
  | [] => []
  | v :: l => jsonArrives v :: jsonArrivesList l
/-- Every entry -/
def jsonArrivesDict : List (Value × Value) → List (Value × Value)
  | [] => []
  | (k, v) :: d => (.str (nameOf k), jsonArrives v) :: jsonArrivesDict d
end

mutual
/-- The keys of a dict are different from each other, here and within: every value in Python is so. -/
def Distinct : Value → Prop
  | .list l => DistinctList l
  | .dict d => (d.map (·.1)).Nodup ∧ DistinctDict d
  | .none | .bool _ | .int _ | .float _ | .str _ | .bytes _ | .obj .. => True
/-- Every element -/
def DistinctList : List Value → Prop
  | [] => True
  | v :: l => Distinct v ∧ DistinctList l
/-- Every entry -/
def DistinctDict : List (Value × Value) → Prop
  | [] => True
  | (k, v) :: d => Distinct k ∧ Distinct v ∧ DistinctDict d
end

mutual
/-- Every key of every dict is one of those allowed. -/
def KeysAre (ok : Value → Prop) : Value → Prop
  | .list l => KeysAreList ok l
  | .dict d => KeysAreDict ok d
  | .none | .bool _ | .int _ | .float _ | .str _ | .bytes _ | .obj .. => True
/-- Every element -/
def KeysAreList (ok : Value → Prop) : List Value → Prop
  | [] => True
  | v :: l => KeysAre ok v ∧ KeysAreList ok l
/-- Every entry -/
def KeysAreDict (ok : Value → Prop) : List (Value × Value) → Prop
  | [] => True
  | (k, v) :: d => ok k ∧ KeysAre ok v ∧ KeysAreDict ok d
end

/-- A string or bytes -/
def StrOrBytes (k : Value) : Prop := (∃ s, k = .str s) ∨ ∃ b, k = .bytes b

/-- A string, bytes or an integer -/
def StrBytesInt (k : Value) : Prop := (∃ s, k = .str s) ∨ (∃ b, k = .bytes b) ∨ ∃ n, k = .int n

/-- A string -/
def Str (k : Value) : Prop := ∃ s, k = .str s

mutual
/-- No unusual NaNs -/
def PlainFloats : Value → Prop
  | .float x => PlainFloat x
  | .list l => PlainFloatsList l
  | .dict d => PlainFloatsDict d
  | .none | .bool _ | .int _ | .str _ | .bytes _ | .obj .. => True
/-- Every element -/
def PlainFloatsList : List Value → Prop
  | [] => True
  | v :: l => PlainFloats v ∧ PlainFloatsList l
/-- Every value of an entry -/
def PlainFloatsDict : List (Value × Value) → Prop
  | [] => True
  | (_, v) :: d => PlainFloats v ∧ PlainFloatsDict d
end

mutual
/-- What a receiver reads if a value is sent with CBOR: one NaN -/
def cborArrives : Value → Value
  | .float x => .float (usual x)
  | .list l => .list (cborArrivesList l)
  | .dict d => .dict (cborArrivesDict d)
  | .none => .none
  | .bool b => .bool b
  | .int n => .int n
  | .str s => .str s
  | .bytes b => .bytes b
  | .obj ty i t => .obj ty i t
/-- Every element -/
def cborArrivesList : List Value → List Value
  | [] => []
  | v :: l => cborArrives v :: cborArrivesList l
/-- Every entry -/
def cborArrivesDict : List (Value × Value) → List (Value × Value)
  | [] => []
  | (k, v) :: d => (k, cborArrives v) :: cborArrivesDict d
end

mutual
/-- Sizes such that computers have -/
def Sized : Value → Prop
  | .int n => n.natAbs.log2 < 2 ^ 63
  | .str s => s.utf8ByteSize < 2 ^ 64
  | .bytes b => b.length < 2 ^ 64
  | .list l => l.length < 2 ^ 64 ∧ SizedList l
  | .dict d => d.length < 2 ^ 64 ∧ SizedDict d
  | .none | .bool _ | .float _ | .obj .. => True
/-- Every element -/
def SizedList : List Value → Prop
  | [] => True
  | v :: l => Sized v ∧ SizedList l
/-- Every entry -/
def SizedDict : List (Value × Value) → Prop
  | [] => True
  | (k, v) :: d => Sized k ∧ Sized v ∧ SizedDict d
end

end Wamp.Spec
