import Verif.Spec.Numbers
import Verif.Spec.Formats

/-!
# The ways to write a value in JSON, MessagePack and CBOR

What the standards allow: RFC 8259 (white space, escapes, numbers; with Python's additions `NaN` and `Infinity`), the MessagePack
specification (every width), RFC 8949 (every width, pieces, items of indefinite length).  Dicts have strings as keys, and no key
twice; big integers in CBOR have at least one byte.
-/

namespace Wamp.Spec

/-- The number that bytes stand for, the first being the most significant -/
def bigEndian : Bytes → Nat
  | [] => 0
  | b :: r => b.toNat * 256 ^ r.length + bigEndian r

/-- A byte -/
def byte (n : Nat) : UInt8 := UInt8.ofNat n

/-- A float of fewer bits, `n`, is the double `x`. -/
def SameFloat (eb fb n : Nat) (x : PyFloat) : Prop :=
  (ShortFinite eb fb n ∧ IsFinite x ∧ real x = shortReal eb fb n ∧ x.bits.toNat / 2 ^ 63 = n / 2 ^ (eb + fb)) ∨
  (n = (2 ^ eb - 1) * 2 ^ fb ∧ x = ⟨0x7ff0000000000000#64⟩) ∨
  (n = 2 ^ (eb + fb) + (2 ^ eb - 1) * 2 ^ fb ∧ x = ⟨0xfff0000000000000#64⟩) ∨
  (n = (2 ^ eb - 1) * 2 ^ fb + 2 ^ (fb - 1) ∧ x = ⟨0x7ff8000000000000#64⟩)

/-! ## CBOR -/

/-- A head: the major type, and the number in the same byte or in one, two, four or eight more -/
inductive CborHead (major n : Nat) : Bytes → Prop
  | short : n < 24 → CborHead major n [byte (major * 32 + n)]
  | long (i : Nat) (b : Bytes) : i < 4 → b.length = 2 ^ i → bigEndian b = n → CborHead major n (byte (major * 32 + 24 + i) :: b)

/-- Bytes: as a whole, or in pieces -/
inductive CborBytes : Bytes → Bytes → Prop
  | whole (b h : Bytes) : CborHead 2 b.length h → CborBytes b (h ++ b)
  | pieces (ps : List (Bytes × Bytes)) : (∀ p ∈ ps, CborHead 2 p.1.length p.2) →
      CborBytes (ps.flatMap fun p => p.1) (0x5f :: (ps.flatMap (fun p => p.2 ++ p.1) ++ [0xff]))

/-- A string: as a whole, or in pieces -/
inductive CborStr : String → Bytes → Prop
  | whole (s : String) (h : Bytes) : CborHead 3 (utf8 s).length h → CborStr s (h ++ utf8 s)
  | pieces (ps : List (String × Bytes)) : (∀ p ∈ ps, CborHead 3 (utf8 p.1).length p.2) →
      CborStr (String.join (ps.map fun p => p.1)) (0x7f :: (ps.flatMap (fun p => p.2 ++ utf8 p.1) ++ [0xff]))

/-- A float of 64, 32 or 16 bits -/
inductive CborFloat (x : PyFloat) : Bytes → Prop
  | double (b : Bytes) : b.length = 8 → bigEndian b = x.bits.toNat → CborFloat x (0xfb :: b)
  | single (b : Bytes) : b.length = 4 → SameFloat 8 23 (bigEndian b) x → CborFloat x (0xfa :: b)
  | half (b : Bytes) : b.length = 2 → SameFloat 5 10 (bigEndian b) x → CborFloat x (0xf9 :: b)

mutual
/-- A value -/
inductive CborItem : Value → Bytes → Prop
  | none : CborItem .none [0xf6]
  | false : CborItem (.bool false) [0xf4]
  | true : CborItem (.bool true) [0xf5]
  | unsigned (n : Nat) (h : Bytes) : CborHead 0 n h → CborItem (.int n) h
  | negative (n : Nat) (h : Bytes) : CborHead 1 n h → CborItem (.int (-1 - n)) h
  | bigUnsigned (h b w : Bytes) : b ≠ [] → CborHead 6 2 h → CborBytes b w → CborItem (.int (bigEndian b)) (h ++ w)
  | bigNegative (h b w : Bytes) : b ≠ [] → CborHead 6 3 h → CborBytes b w → CborItem (.int (-1 - bigEndian b)) (h ++ w)
  | float (x : PyFloat) (w : Bytes) : CborFloat x w → CborItem (.float x) w
  | bytes (b w : Bytes) : CborBytes b w → CborItem (.bytes b) w
  | str (s : String) (w : Bytes) : CborStr s w → CborItem (.str s) w
  | list (l : List Value) (h w : Bytes) : CborHead 4 l.length h → CborItems l w → CborItem (.list l) (h ++ w)
  | openList (l : List Value) (w : Bytes) : CborItems l w → CborItem (.list l) (0x9f :: (w ++ [0xff]))
  | dict (d : List (Value × Value)) (h w : Bytes) : (d.map (·.1)).Nodup → CborHead 5 d.length h → CborPairs d w →
      CborItem (.dict d) (h ++ w)
  | openDict (d : List (Value × Value)) (w : Bytes) : (d.map (·.1)).Nodup → CborPairs d w → CborItem (.dict d) (0xbf :: (w ++ [0xff]))
/-- Values one after another -/
inductive CborItems : List Value → Bytes → Prop
  | nil : CborItems [] []
  | cons (v : Value) (l : List Value) (a w : Bytes) : CborItem v a → CborItems l w → CborItems (v :: l) (a ++ w)
/-- Keys and values one after another -/
inductive CborPairs : List (Value × Value) → Bytes → Prop
  | nil : CborPairs [] []
  | cons (k : String) (v : Value) (d : List (Value × Value)) (a b w : Bytes) : CborStr k a → CborItem v b → CborPairs d w →
      CborPairs ((.str k, v) :: d) (a ++ (b ++ w))
end

/-! ## MessagePack -/

/-- A length: in the first byte if it is below `few`, or in the number of bytes that goes with another first byte -/
inductive MsgPackHead (few base : Nat) (wide : List (UInt8 × Nat)) (n : Nat) : Bytes → Prop
  | short : n < few → MsgPackHead few base wide n [byte (base + n)]
  | long (h : UInt8) (k : Nat) (b : Bytes) : (h, k) ∈ wide → b.length = k → bigEndian b = n → MsgPackHead few base wide n (h :: b)

/-- An integer: in one byte, without sign, or with sign in two's complement -/
inductive MsgPackInt : Int → Bytes → Prop
  | positive (n : Nat) : n < 128 → MsgPackInt n [byte n]
  | negative (n : Nat) : 0 < n → n ≤ 32 → MsgPackInt (-n) [byte (256 - n)]
  | unsigned (i : Nat) (b : Bytes) : i < 4 → b.length = 2 ^ i → MsgPackInt (bigEndian b) (byte (0xcc + i) :: b)
  | signed (i : Nat) (b : Bytes) : i < 4 → b.length = 2 ^ i →
      MsgPackInt (if bigEndian b < 2 ^ (8 * 2 ^ i - 1) then bigEndian b else (bigEndian b : Int) - 2 ^ (8 * 2 ^ i)) (byte (0xd0 + i) :: b)

/-- A string -/
def MsgPackStr (s : String) (w : Bytes) : Prop :=
  ∃ h, MsgPackHead 32 0xa0 [(0xd9, 1), (0xda, 2), (0xdb, 4)] (utf8 s).length h ∧ w = h ++ utf8 s

mutual
/-- A value -/
inductive MsgPackItem : Value → Bytes → Prop
  | none : MsgPackItem .none [0xc0]
  | false : MsgPackItem (.bool false) [0xc2]
  | true : MsgPackItem (.bool true) [0xc3]
  | int (n : Int) (w : Bytes) : MsgPackInt n w → MsgPackItem (.int n) w
  | double (x : PyFloat) (b : Bytes) : b.length = 8 → bigEndian b = x.bits.toNat → MsgPackItem (.float x) (0xcb :: b)
  | single (x : PyFloat) (b : Bytes) : b.length = 4 → SameFloat 8 23 (bigEndian b) x → MsgPackItem (.float x) (0xca :: b)
  | bytes (b h : Bytes) : MsgPackHead 0 0 [(0xc4, 1), (0xc5, 2), (0xc6, 4)] b.length h → MsgPackItem (.bytes b) (h ++ b)
  | str (s : String) (w : Bytes) : MsgPackStr s w → MsgPackItem (.str s) w
  | list (l : List Value) (h w : Bytes) : MsgPackHead 16 0x90 [(0xdc, 2), (0xdd, 4)] l.length h → MsgPackItems l w →
      MsgPackItem (.list l) (h ++ w)
  | dict (d : List (Value × Value)) (h w : Bytes) : (d.map (·.1)).Nodup → MsgPackHead 16 0x80 [(0xde, 2), (0xdf, 4)] d.length h →
      MsgPackPairs d w → MsgPackItem (.dict d) (h ++ w)
/-- Values one after another -/
inductive MsgPackItems : List Value → Bytes → Prop
  | nil : MsgPackItems [] []
  | cons (v : Value) (l : List Value) (a w : Bytes) : MsgPackItem v a → MsgPackItems l w → MsgPackItems (v :: l) (a ++ w)
/-- Keys and values one after another -/
inductive MsgPackPairs : List (Value × Value) → Bytes → Prop
  | nil : MsgPackPairs [] []
  | cons (k : String) (v : Value) (d : List (Value × Value)) (a b w : Bytes) : MsgPackStr k a → MsgPackItem v b → MsgPackPairs d w →
      MsgPackPairs ((.str k, v) :: d) (a ++ (b ++ w))
end

/-! ## JSON -/

/-- White space -/
def Blank (w : List Char) : Prop := ∀ c ∈ w, c = ' ' ∨ c = '\t' ∨ c = '\n' ∨ c = '\r'

/-- A hexadecimal digit, small or capital -/
def HexDigit (n : Nat) (c : Char) : Prop := n < 16 ∧ ("0123456789abcdef".toList[n]? = some c ∨ "0123456789ABCDEF".toList[n]? = some c)

/-- `\uXXXX` -/
inductive JsonUnit : Nat → List Char → Prop
  | mk (n a b c d : Nat) (w x y z : Char) : HexDigit a w → HexDigit b x → HexDigit c y → HexDigit d z →
      n = a * 16 ^ 3 + b * 16 ^ 2 + c * 16 + d → JsonUnit n ['\\', 'u', w, x, y, z]

/-- A character of a string: as it is, after a backslash, as a code, or as a pair of surrogates -/
inductive JsonChar (c : Char) : List Char → Prop
  | plain : c ≠ '"' → c ≠ '\\' → 0x20 ≤ c.toNat → JsonChar c [c]
  | short (e : Char) : (e, c) ∈ [('"', '"'), ('\\', '\\'), ('/', '/'), ('b', '\x08'), ('f', '\x0c'), ('n', '\n'), ('r', '\r'), ('t', '\t')] →
      JsonChar c ['\\', e]
  | code (u : List Char) : JsonUnit c.toNat u → JsonChar c u
  | pair (u w : List Char) : 0x10000 ≤ c.toNat → JsonUnit (0xd800 + (c.toNat - 0x10000) / 0x400) u →
      JsonUnit (0xdc00 + (c.toNat - 0x10000) % 0x400) w → JsonChar c (u ++ w)

/-- The characters of a string -/
inductive JsonChars : List Char → List Char → Prop
  | nil : JsonChars [] []
  | cons (c : Char) (s u w : List Char) : JsonChar c u → JsonChars s w → JsonChars (c :: s) (u ++ w)

/-- A string -/
def JsonStr (s : String) (w : List Char) : Prop := ∃ u, JsonChars s.toList u ∧ w = '"' :: (u ++ ['"'])

mutual
/-- A value -/
inductive JsonItem : Value → List Char → Prop
  | none : JsonItem .none "null".toList
  | false : JsonItem (.bool false) "false".toList
  | true : JsonItem (.bool true) "true".toList
  | int (neg : Bool) (n : Nat) : JsonItem (.int (if neg then -n else n)) (Numeral.text ⟨neg, n, [], none⟩)
  | float (n : Numeral) (x : PyFloat) : n.fraction ≠ [] ∨ n.expo ≠ Option.none → ReadAs n x → JsonItem (.float x) n.text
  | nan : JsonItem (.float ⟨0x7ff8000000000000#64⟩) "NaN".toList
  | infinity : JsonItem (.float ⟨0x7ff0000000000000#64⟩) "Infinity".toList
  | minusInfinity : JsonItem (.float ⟨0xfff0000000000000#64⟩) "-Infinity".toList
  | str (s : String) (w : List Char) : JsonStr s w → JsonItem (.str s) w
  | emptyList (a : List Char) : Blank a → JsonItem (.list []) ('[' :: (a ++ [']']))
  | list (l : List Value) (w : List Char) : JsonItems l w → JsonItem (.list l) ('[' :: (w ++ [']']))
  | emptyDict (a : List Char) : Blank a → JsonItem (.dict []) ('{' :: (a ++ ['}']))
  | dict (d : List (Value × Value)) (w : List Char) : (d.map (·.1)).Nodup → JsonMembers d w → JsonItem (.dict d) ('{' :: (w ++ ['}']))
/-- One value or more, with commas between them -/
inductive JsonItems : List Value → List Char → Prop
  | last (v : Value) (a w b : List Char) : Blank a → JsonItem v w → Blank b → JsonItems [v] (a ++ (w ++ b))
  | more (v : Value) (l : List Value) (a w b t : List Char) : Blank a → JsonItem v w → Blank b → JsonItems l t →
      JsonItems (v :: l) (a ++ (w ++ (b ++ ',' :: t)))
/-- One member or more -/
inductive JsonMembers : List (Value × Value) → List Char → Prop
  | last (k : String) (v : Value) (a q b c w e : List Char) : Blank a → JsonStr k q → Blank b → Blank c → JsonItem v w → Blank e →
      JsonMembers [(.str k, v)] (a ++ (q ++ (b ++ ':' :: (c ++ (w ++ e)))))
  | more (k : String) (v : Value) (d : List (Value × Value)) (a q b c w e t : List Char) : Blank a → JsonStr k q → Blank b → Blank c →
      JsonItem v w → Blank e → JsonMembers d t → JsonMembers ((.str k, v) :: d) (a ++ (q ++ (b ++ ':' :: (c ++ (w ++ (e ++ ',' :: t))))))
end

/-- A whole text -/
def JsonText (v : Value) (s : String) : Prop := ∃ a w b, Blank a ∧ JsonItem v w ∧ Blank b ∧ s.toList = a ++ (w ++ b)

/-- `w` is a way to write `v` in the format. -/
def Format.Spells : Format → Value → String ⊕ Bytes → Prop
  | .json, v, .inl s => JsonText v s
  | .msgpack, v, .inr b => MsgPackItem v b
  | .cbor, v, .inr b => CborItem v b
  | _, _, _ => False

/-- The same as bytes: texts are encoded as UTF-8. -/
def Format.SpellsBytes : Format → Value → Bytes → Prop
  | .json, v, b => ∃ s, b = utf8 s ∧ JsonText v s
  | .msgpack, v, b => MsgPackItem v b
  | .cbor, v, b => CborItem v b

end Wamp.Spec
