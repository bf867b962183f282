/-!
# Insertion-ordered dictionaries

Python `dict` with hashable keys, as used by `broker.py`, `dealer.py` and `session.py`: an association
list in insertion order.  `set` on an existing key keeps its position, on a new key appends; `del`
removes the key.  (`KeyError` on a missing key is raised by the modelled functions, which test first.)
-/

namespace Wamp

/-- An insertion-ordered dict. -/
structure Dict (K V : Type) where
  items : List (K × V)
  deriving Repr, DecidableEq

namespace Dict
variable {K V : Type} [DecidableEq K]

/-- `{}` -/
def empty : Dict K V := ⟨[]⟩

/-- First entry with key `k`. -/
def lookupL (l : List (K × V)) (k : K) : Option V :=
  match l with
  | [] => none
  | (k', v) :: rest => if k' = k then some v else lookupL rest k

/-- Overwrite in place or append. -/
def setL (l : List (K × V)) (k : K) (v : V) : List (K × V) :=
  match l with
  | [] => [(k, v)]
  | (k', w) :: rest => if k' = k then (k', v) :: rest else (k', w) :: setL rest k v

/-- `d.get(k)` -/
def get (d : Dict K V) (k : K) : Option V := lookupL d.items k
/-- `k in d` -/
def contains (d : Dict K V) (k : K) : Bool := (d.get k).isSome
/-- `d[k] = v` -/
def set (d : Dict K V) (k : K) (v : V) : Dict K V := ⟨setL d.items k v⟩
/-- `del d[k]` / `d.pop(k)` when present -/
def del (d : Dict K V) (k : K) : Dict K V := ⟨d.items.filter (fun kv => kv.1 ≠ k)⟩
/-- `d.keys()` in insertion order -/
def keys (d : Dict K V) : List K := d.items.map (·.1)
/-- `len(d)` -/
def size (d : Dict K V) : Nat := d.items.length

end Dict
end Wamp
