import Verif.Model.Float
import Mathlib.Algebra.Order.Field.Power
import Mathlib.Data.Rat.Lemmas
import Mathlib.Algebra.Order.Field.Rat

/-!
# Numbers in JSON texts

RFC 8259, section 6: `number = [ minus ] int [ frac ] [ exp ]`, and IEEE 754: the value of a double, and rounding to the
nearest.
-/

namespace Wamp.Spec
set_option exponentiation.threshold 2000

/-- The exponent part: `e` or `E`, perhaps a sign, and digits -/
structure Expo where
  upper : Bool
  /-- `none`: no sign, `some false`: plus, `some true`: minus -/
  sign : Option Bool
  first : Fin 10
  rest : List (Fin 10)

/-- A number as JSON writes it -/
structure Numeral where
  neg : Bool
  whole : Nat
  /-- The digits after the decimal point; without digits there is no point either. -/
  fraction : List (Fin 10)
  expo : Option Expo

/-- A digit -/
def digitChar (d : Fin 10) : Char := "0123456789".toList[d.val]!

/-- The sign of an exponent -/
def signText : Option Bool → List Char
  | none => []
  | some false => ['+']
  | some true => ['-']

/-- The text of an exponent -/
def Expo.text (e : Expo) : List Char :=
  (if e.upper then 'E' else 'e') ::
    (signText e.sign ++ (e.first :: e.rest).map digitChar)

/-- Perhaps an exponent -/
def expoText : Option Expo → List Char
  | none => []
  | some e => e.text

/-- The text of a number -/
def Numeral.text (n : Numeral) : List Char :=
  (if n.neg then ['-'] else []) ++ (Nat.repr n.whole).toList ++ (if n.fraction = [] then [] else '.' :: n.fraction.map digitChar) ++
    expoText n.expo

/-- The value of digits, read from the left -/
def digitsValue (ds : List (Fin 10)) : Nat := ds.foldl (fun v d => v * 10 + d.val) 0

/-- The value of the digits after the point -/
def fractionValue : List (Fin 10) → ℚ
  | [] => 0
  | d :: ds => ((d.val : ℚ) + fractionValue ds) / 10

/-- The value of an exponent -/
def Expo.value (e : Expo) : Int :=
  if e.sign = some true then -(digitsValue (e.first :: e.rest) : Int) else digitsValue (e.first :: e.rest)

/-- Perhaps an exponent -/
def expoValue : Option Expo → Int
  | none => 0
  | some e => e.value

/-- The number without its sign -/
def Numeral.magnitude (n : Numeral) : ℚ :=
  ((n.whole : ℚ) + fractionValue n.fraction) * 10 ^ expoValue n.expo

/-- The number -/
def Numeral.value (n : Numeral) : ℚ := if n.neg then -n.magnitude else n.magnitude

/-- A double that is neither an infinity nor a NaN -/
def IsFinite (f : PyFloat) : Prop := f.bits.toNat / 2 ^ 52 % 2 ^ 11 ≠ 2047

/-- The number a finite double stands for -/
def real (f : PyFloat) : ℚ :=
  let s : ℚ := if f.bits.toNat / 2 ^ 63 = 1 then -1 else 1
  let e : Nat := f.bits.toNat / 2 ^ 52 % 2 ^ 11
  let m : Nat := f.bits.toNat % 2 ^ 52
  if e = 0 then s * (m / 2 ^ 52) * 2 ^ (-1022 : Int) else s * (1 + m / 2 ^ 52) * 2 ^ ((e : Int) - 1023)

/-- The number a finite float of fewer bits stands for: one bit for the sign, `eb` for the exponent, `fb` for the fraction -/
def shortReal (eb fb n : Nat) : ℚ :=
  let s : ℚ := if n / 2 ^ (eb + fb) % 2 = 1 then -1 else 1
  let e : Nat := n / 2 ^ fb % 2 ^ eb
  let m : Nat := n % 2 ^ fb
  let bias : Int := 2 ^ (eb - 1) - 1
  if e = 0 then s * (m / 2 ^ fb) * 2 ^ (1 - bias) else s * (1 + m / 2 ^ fb) * 2 ^ ((e : Int) - bias)

/-- It is neither an infinity nor a NaN. -/
def ShortFinite (eb fb n : Nat) : Prop := n / 2 ^ fb % 2 ^ eb ≠ 2 ^ eb - 1

/-- `r` is the nearest double to `v`; if another one is as near, the last bit of `r` is zero. -/
def Nearest (v : ℚ) (r : PyFloat) : Prop :=
  IsFinite r ∧ ∀ g, IsFinite g → |v - real r| ≤ |v - real g| ∧
    (|v - real g| = |v - real r| → real g = real r ∨ r.bits.toNat % 2 = 0)

/-- The number can be written with `p` digits and a power of ten. -/
def HasDigits (q : ℚ) (p : Nat) : Prop := ∃ (d : Nat) (x : Int), d < 10 ^ p ∧ q = d * 10 ^ x

/-- What a number with a fraction or an exponent is read as: the nearest double (of two equally near ones the even one), with
the sign that was written; an infinity if the number is beyond the largest double by half a unit in its last place. -/
def ReadAs (n : Numeral) (r : PyFloat) : Prop :=
  (n.magnitude < 2 ^ 1024 - 2 ^ 970 → Nearest n.value r ∧ r.bits.msb = n.neg) ∧
  (2 ^ 1024 - 2 ^ 970 ≤ n.magnitude → r = ⟨if n.neg then 0xfff0000000000000#64 else 0x7ff0000000000000#64⟩)

end Wamp.Spec
