/-!
# Doubles and their decimal texts

`float` of CPython: an IEEE-754 double.  `json.dumps` writes `float.__repr__` (`json/encoder.py`, `floatstr`), `json.loads`
calls `float` on the text (`json/decoder.py`, `parse_float`), and exception texts contain `repr`.  This file models the
language, not a file of `/repo`.

`float(text)` rounds to the nearest double, ties to even (`_Py_dg_strtod`); `repr` writes the shortest decimal that `float`
reads back as the same double, of those the nearest (`_Py_dg_dtoa`, mode 0), in the layout of `format_float_short`.
-/

namespace Wamp

namespace Json
/-- The decimal digits of a number with at most so many digits -/
def digits : Nat → Nat → List Char
  | 0, _ => []
  | k + 1, n => if n < 10 then [Char.ofNat (48 + n)] else digits k (n / 10) ++ [Char.ofNat (48 + n % 10)]

/-- `str(n)` of a natural number -/
def decimal (n : Nat) : List Char := digits (n + 1) n
end Json

/-- An IEEE-754 double, given by its bits. -/
structure PyFloat where
  bits : BitVec 64
  deriving DecidableEq, Repr

namespace PyFloat
open Json (decimal)

def sign (f : PyFloat) : Bool := f.bits.toNat / 2^63 = 1
def expo (f : PyFloat) : Nat := f.bits.toNat / 2^52 % 2^11
def frac (f : PyFloat) : Nat := f.bits.toNat % 2^52
/-- The integer a double is numerically equal to, if any (`1.0 == 1` in Python). -/
def intVal? (f : PyFloat) : Option Int :=
  if f.expo = 2047 then none
  else
    let m : Nat := if f.expo = 0 then f.frac else f.frac + 2^52
    let e : Nat := if f.expo = 0 then 1 else f.expo
    let mag : Option Nat :=
      if 1075 ≤ e then some (m * 2 ^ (e - 1075))
      else if m % 2 ^ (1075 - e) = 0 then some (m / 2 ^ (1075 - e)) else none
    mag.map fun k => if f.sign then -(k : Int) else (k : Int)
/-- `bool(x)` of a float: everything but `±0.0` (NaN is truthy). -/
def truthy (f : PyFloat) : Bool := !(f.expo = 0 && f.frac = 0)

/-- Plus infinity -/
def posInf : PyFloat := ⟨0x7ff0000000000000#64⟩
/-- Minus infinity -/
def negInf : PyFloat := ⟨0xfff0000000000000#64⟩
/-- The NaN of `float("nan")` -/
def nan : PyFloat := ⟨0x7ff8000000000000#64⟩
/-- `x != x` -/
def isNaN (f : PyFloat) : Bool := f.expo = 2047 && f.frac ≠ 0
/-- The bits without the sign -/
def magBits (f : PyFloat) : Nat := f.bits.toNat % 2^63

/-! ## Reading -/

/-- `m * b ** k` -/
def scale (b m : Nat) (k : Int) : Rat :=
  if 0 ≤ k then ((m * b ^ k.toNat : Nat) : Rat) else mkRat m (b ^ (-k).toNat)

/-- The largest `k` with `2 ** k <= q`, for positive `q` -/
def log2 (q : Rat) : Int :=
  let k : Int := (q.num.toNat.log2 : Int) - (q.den.log2 : Int)
  if scale 2 1 k ≤ q then k else k - 1

/-- `a / b` as an integer: the nearest, and of two equally near ones the even one -/
def halfEven (a b : Nat) : Nat :=
  if 2 * (a % b) < b then a / b
  else if b < 2 * (a % b) then a / b + 1
  else if a / b % 2 = 0 then a / b
  else a / b + 1

/-- `q / 2 ** k` as an integer -/
def halfEvenAt (q : Rat) (k : Int) : Nat :=
  if 0 ≤ k then halfEven q.num.toNat (q.den * 2 ^ k.toNat) else halfEven (q.num.toNat * 2 ^ (-k).toNat) q.den

/-- The bits of the double nearest to `q >= 0`: 53 significant bits, but none below `2 ** -1074`; what is too large becomes
infinity. -/
def nearest (q : Rat) : Nat :=
  if q = 0 then 0
  else
    let k := max (-1074) (log2 q - 52)
    min ((k + 1074).toNat * 2 ^ 52 + halfEvenAt q k) (2047 * 2 ^ 52)

/-- A sign and the other bits -/
def ofMag (neg : Bool) (b : Nat) : PyFloat := ⟨BitVec.ofNat 64 ((if neg then 2 ^ 63 else 0) + b)⟩

/-- `float` of a numeral with these digits and this power of ten -/
def ofDecimal (neg : Bool) (d : Nat) (x : Int) : PyFloat := ofMag neg (nearest (scale 10 d x))

/-- The double equal to a shorter float of `eb` exponent bits and `fb` fraction bits (`PyFloat_Unpack2`, `PyFloat_Unpack4`).
Simplification: only the usual NaN is modelled. -/
def widen (eb fb n : Nat) : Option PyFloat :=
  let neg : Bool := n / 2 ^ (eb + fb) % 2 = 1
  let e := n / 2 ^ fb % 2 ^ eb
  let f := n % 2 ^ fb
  if e = 2 ^ eb - 1 then
    if f = 0 then some (if neg then negInf else posInf)
    else if f = 2 ^ (fb - 1) ∧ neg = false then some nan
    else none
  else
    let m := if e = 0 then f else f + 2 ^ fb
    some (ofMag neg (nearest (scale 2 m ((max e 1 : Nat) - (2 ^ (eb - 1) - 1 : Int) - fb))))

/-! ## Writing -/

/-- `abs(f) = mant * 2 ** pow` -/
def mant (f : PyFloat) : Nat := if f.expo = 0 then f.frac else f.frac + 2 ^ 52
/-- The power of two -/
def pow (f : PyFloat) : Int := if f.expo = 0 then -1074 else (f.expo : Int) - 1075
/-- `abs(f)` of a finite double -/
def mag (f : PyFloat) : Rat := scale 2 f.mant f.pow

/-- The largest `k` with `10 ** k <= q`, for positive `q` -/
def log10 (q : Rat) : Int :=
  if 1 ≤ q then ((decimal (q.num.toNat / q.den)).length : Int) - 1
  else
    let t := (decimal (q.den / q.num.toNat)).length - 1
    if q.den ≤ q.num.toNat * 10 ^ t then -(t : Int) else -(t : Int) - 1

/-- Without trailing zeros -/
def strip : Nat → Nat × Int → Nat × Int
  | 0, dx => dx
  | k + 1, (d, x) => if d ≠ 0 ∧ d % 10 = 0 then strip k (d / 10, x + 1) else (d, x)

/-- Of the two decimals with `p` digits around `q`, those that read back, the nearer one first, an even one first if both
are equally near -/
def candidates (q : Rat) (b p : Nat) : List (Nat × Int) :=
  let x := log10 q - (p : Int) + 1
  let (num, den) : Nat × Nat :=
    if 0 ≤ x then (q.num.toNat, q.den * 10 ^ x.toNat) else (q.num.toNat * 10 ^ (-x).toNat, q.den)
  let lo := num / den
  let hi := lo + 1
  let first := if 2 * (num % den) < den ∨ 2 * (num % den) = den ∧ lo % 2 = 0 then [lo, hi] else [hi, lo]
  (first.map fun d => strip 20 (d, x)).filter fun dx => nearest (scale 10 dx.1 dx.2) = b

/-- The digits and the power of ten `repr` writes.  Seventeen digits are always enough (`seventeen` in Proofs/Shortest.lean), so the
last case never applies. -/
def shortest (f : PyFloat) : Nat × Int :=
  if f.mant = 0 then (0, 0)
  else
    match ((List.range 17).flatMap fun p => candidates f.mag f.magBits (p + 1)).head? with
    | some dx => dx
    | none => if 0 ≤ f.pow then (f.mant * 2 ^ f.pow.toNat, 0) else (f.mant * 5 ^ (-f.pow).toNat, f.pow)

/-- `format_float_short` with the digits `ds` and the decimal point after so many of them -/
def layout (ds : List Char) (point : Int) : List Char :=
  if -4 < point ∧ point ≤ 16 then
    if point ≤ 0 then '0' :: '.' :: (List.replicate (-point).toNat '0' ++ ds)
    else if ds.length ≤ point.toNat then ds ++ List.replicate (point.toNat - ds.length) '0' ++ ['.', '0']
    else ds.take point.toNat ++ '.' :: ds.drop point.toNat
  else
    let e := (point - 1).natAbs
    ds.take 1 ++ (if ds.length ≤ 1 then [] else '.' :: ds.drop 1) ++
      'e' :: (if point - 1 < 0 then '-' else '+') :: (if e < 10 then '0' :: decimal e else decimal e)

/-- `repr` of a finite double -/
def finiteText (f : PyFloat) : List Char :=
  let (d, x) := f.shortest
  let ds := decimal d
  (if f.sign then ['-'] else []) ++ layout ds (ds.length + x)

/-- `repr(f)` -/
def repr (f : PyFloat) : String :=
  if f.isNaN then "nan"
  else if f.expo = 2047 then (if f.sign then "-inf" else "inf")
  else String.ofList f.finiteText

end PyFloat
end Wamp
