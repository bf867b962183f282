import Verif.Spec.Stack

/-!
# How much room a message takes

A number of bytes computed from the contents alone, without saying which serializer will be used.  A receiver's serializer need not
be the sender's, so this is what an application can go by to know that what it sends will fit a frame, whoever gets to see it.
-/

namespace Wamp.Spec

mutual
/-- The room for a value.  Six bytes for every byte of a string is what JSON needs for control characters. -/
def room : Value → Nat
  | .none => 4
  | .bool _ => 5
  | .int _ => 20
  | .float _ => 24
  | .str s => 9 + 6 * s.utf8ByteSize
  | .bytes b => 9 + b.length
  | .list l => 9 + roomList l
  | .dict d => 9 + roomDict d
  | .obj .. => 0
/-- The room for the elements of a list -/
def roomList : List Value → Nat
  | [] => 0
  | v :: l => room v + 2 + roomList l
/-- The room for the entries of a dict -/
def roomDict : List (Value × Value) → Nat
  | [] => 0
  | (k, v) :: d => room k + room v + 4 + roomDict d
end

/-- The room for a message -/
def roomOf (m : Message) : Nat := room (.list m.marshal)

/-- What the router may add: it writes ids, flags and the names of its own errors. -/
def routerAdds : Nat := 256

/-- Every message the applications send leaves room in a frame for what the router may add. -/
def SendsShort (sched : List Stack.SAct) : Prop := ∀ c m, .send c m ∈ sched → roomOf m + routerAdds < 2 ^ 24

end Wamp.Spec
