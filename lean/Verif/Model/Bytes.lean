import Verif.Model.Serializer

/-!
# Bytes — what the binary codecs share

Big-endian numbers, UTF-8, reading from the front of `bytes`, and `d[k] = v` for the keys the codecs produce.
This file models the language and the external codecs, not a file of `/repo`.
-/

namespace Wamp

/-- `n.to_bytes(k, "big")` of a number below `256 ^ k` -/
def be : Nat → Nat → Bytes
  | 0, _ => []
  | k + 1, n => be k (n / 256) ++ [UInt8.ofNat n]

/-- `int.from_bytes(b, "big")` -/
def ofBe (b : Bytes) : Nat := b.foldl (fun n x => n * 256 + x.toNat) 0

/-- `s.encode()` -/
def utf8 (s : String) : Bytes := s.toUTF8.data.toList

/-- `b.decode()`, `none` if it is not UTF-8 -/
def ofUtf8 (b : Bytes) : Option String := String.fromUTF8? ⟨b.toArray⟩

/-- The next `n` bytes, and the rest; the given exception if there are fewer. -/
def takeBytes (e : Exc) (n : Nat) (r : Bytes) : Except Exc (Bytes × Bytes) :=
  if r.length < n then .error e else .ok (r.take n, r.drop n)

/-- The next `k` bytes as a number, and the rest -/
def takeNat (e : Exc) (k : Nat) (r : Bytes) : Except Exc (Nat × Bytes) := do
  let (b, r) ← takeBytes e k r
  .ok (ofBe b, r)

/-- `d[k] = v` for a key that is a `str`, `bytes` or `int` (two of which are equal only if they are the same). -/
def PyDict.put (d : PyDict) (k v : Value) : PyDict :=
  match d with
  | [] => [(k, v)]
  | (k', w) :: rest => if k' = k then (k', v) :: rest else (k', w) :: put rest k v

/-- The dict made of key-value pairs in this order -/
def PyDict.ofPairs (l : List (Value × Value)) : PyDict := l.foldl (fun d kv => d.put kv.1 kv.2) []

/-- `n` items one after another, given how to read one -/
def readMany (item : Bytes → Except Exc (Value × Bytes)) : Nat → Bytes → Except Exc (List Value × Bytes)
  | 0, r => .ok ([], r)
  | n + 1, r => do
    let (v, r) ← item r
    let (l, r) ← readMany item n r
    .ok (v :: l, r)

/-- `n` pairs one after another, given how to read a key and a value -/
def readPairs (key item : Bytes → Except Exc (Value × Bytes)) : Nat → Bytes → Except Exc (List (Value × Value) × Bytes)
  | 0, r => .ok ([], r)
  | n + 1, r => do
    let (k, r) ← key r
    let (v, r) ← item r
    let (l, r) ← readPairs key item n r
    .ok ((k, v) :: l, r)

end Wamp
