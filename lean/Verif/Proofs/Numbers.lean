import Verif.Proofs.Json
import Verif.Spec.Numbers

/-! # Numerals and the doubles they are read as -/

set_option exponentiation.threshold 2000

namespace Wamp
open Spec

namespace PyFloat

theorem real_eq (f : PyFloat) : real f = (if f.sign then -1 else 1) * f.mag := by
  rw [mag_eq]
  unfold real
  simp only
  have hs : (if f.bits.toNat / 2 ^ 63 = 1 then (-1 : ℚ) else 1) = if f.sign then -1 else 1 := by
    unfold sign; simp
  rw [hs]
  have he : f.bits.toNat / 2 ^ 52 % 2 ^ 11 = f.expo := rfl
  have hf : f.bits.toNat % 2 ^ 52 = f.frac := rfl
  rw [he, hf]
  unfold mant pow
  split
  · rw [show (-1074 : Int) = -1022 + -52 by norm_num, two_pow_add]
    have : (2 : ℚ) ^ (-52 : Int) = 1 / 2 ^ 52 := by norm_num
    rw [this]; ring
  · rw [show (f.expo : Int) - 1075 = ((f.expo : Int) - 1023) + -52 by ring, two_pow_add]
    have : (2 : ℚ) ^ (-52 : Int) = 1 / 2 ^ 52 := by norm_num
    rw [this]; push_cast; ring

theorem finite_iff (f : PyFloat) : IsFinite f ↔ f.expo ≠ 2047 := Iff.rfl

theorem mag_nonneg (f : PyFloat) : 0 ≤ f.mag := by
  rw [mag_eq]; exact mul_nonneg (by positivity) (two_pow_pos _).le

theorem parity (f : PyFloat) : f.bits.toNat % 2 = f.magBits % 2 := by
  unfold magBits; omega

theorem ofMag_bits (neg : Bool) (b : Nat) : (ofMag neg b).bits.toNat % 2 = b % 2 := by
  unfold ofMag
  simp only [BitVec.toNat_ofNat]
  split <;> omega

/-- Below the largest double and half a step -/
theorem nearest_lt {q : ℚ} (h : 0 ≤ q) (hq : q < 2 ^ 1024 - 2 ^ 970) : nearest q < 2047 * 2 ^ 52 := by
  rcases h.eq_or_lt with rfl | h
  · rw [nearest_zero]; norm_num
  obtain ⟨k, n, h1, h2, h3, h4, h5, h6, e⟩ := nearest_form h
  rw [e, min_lt_iff]
  left
  have hk := two_pow_pos k
  by_cases c : k ≤ 970
  · omega
  have hk1 : k = 971 := by
    rcases h4 with h4 | h4
    · omega
    · have : (2 : ℚ) ^ (k + 52) < 2 ^ (1024 : Int) := by
        refine lt_of_le_of_lt h4 (lt_trans hq ?_)
        norm_num
      have := two_pow_lt.1 this
      omega
  subst hk1
  have : n < 2 ^ 53 := by
    by_contra hn
    have hn : n = 2 ^ 53 := by omega
    subst hn
    have hy : q / 2 ^ (971 : Int) < 2 ^ 53 - 1 / 2 := by
      rw [div_lt_iff₀ hk]
      refine lt_of_lt_of_le hq ?_
      norm_num
    have := h6.1
    push_cast at this
    rw [abs_of_nonpos (by linarith)] at this
    linarith
  norm_num
  omega

theorem nearest_ge {q : ℚ} (hq : 2 ^ 1024 - 2 ^ 970 ≤ q) : nearest q = 2047 * 2 ^ 52 := by
  have h : 0 < q := lt_of_lt_of_le (by norm_num) hq
  obtain ⟨k, n, h1, h2, h3, h4, h5, h6, e⟩ := nearest_form h
  rw [e, min_eq_right_iff]
  have hk := two_pow_pos k
  have c : 971 ≤ k := by
    have : (2 : ℚ) ^ (1023 : Int) < 2 ^ (k + 53) := lt_of_le_of_lt (le_trans (by norm_num) hq) h5
    have := two_pow_lt.1 this
    omega
  by_cases hk1 : k = 971
  · subst hk1
    have : n = 2 ^ 53 := by
      have hy : 2 ^ 53 - 1 / 2 ≤ q / 2 ^ (971 : Int) := by
        rw [le_div_iff₀ hk]
        refine le_trans ?_ hq
        norm_num
      by_contra hn
      have hn : n + 1 ≤ 2 ^ 53 := by omega
      have hn' : (n : ℚ) + 1 ≤ 2 ^ 53 := by exact_mod_cast hn
      obtain ⟨a, b⟩ := h6
      rw [abs_of_nonneg (by linarith)] at a b
      have e1 : q / 2 ^ (971 : Int) - n = 1 / 2 := le_antisymm a (by linarith)
      have := b e1
      have hn2 : (n : ℚ) = 2 ^ 53 - 1 := by linarith
      have : n + 1 = 2 ^ 53 := by
        have : ((n + 1 : Nat) : ℚ) = ((2 ^ 53 : Nat) : ℚ) := by push_cast; linarith
        exact_mod_cast this
      omega
    subst this
    decide
  · have : 2 ^ 52 ≤ n := by
      rcases h3 with h3 | h3
      · exact h3
      · omega
    omega

/-- A sign and a number -/
theorem ofMag_real (neg : Bool) {b : Nat} (h : b < 2 ^ 63) : real (ofMag neg b) = (if neg then -1 else 1) * (ofMag neg b).mag := by
  rw [real_eq, ofMag_sign neg h]

theorem nearest_nearest (neg : Bool) {q : ℚ} (h : 0 ≤ q) (hq : q < 2 ^ 1024 - 2 ^ 970) :
    Nearest (if neg then -q else q) (ofMag neg (nearest q)) := by
  have hb := nearest_lt h hq
  have hfin : IsFinite (ofMag neg (nearest q)) := by
    rw [finite_iff, ofMag_expo neg (by omega)]; omega
  have hreal := ofMag_real neg (show nearest q < 2 ^ 63 by omega)
  -- the magnitudes
  have key : ∀ g, IsFinite g → |q - (ofMag neg (nearest q)).mag| ≤ |q - g.mag| ∧
      (|q - g.mag| = |q - (ofMag neg (nearest q)).mag| → g.mag = (ofMag neg (nearest q)).mag ∨ nearest q % 2 = 0) := by
    intro g hg
    rcases h.eq_or_lt with rfl | hpos
    · rw [nearest_zero]
      have : (ofMag neg 0).mag = 0 := by
        rw [mag_eq, mant, ofMag_expo neg (by norm_num), ofMag_frac neg (by norm_num)]; simp
      rw [this]
      exact ⟨by simp, fun _ => .inr rfl⟩
    · obtain ⟨k, n, h1, h2, h3, h4, h5, h6, e⟩ := nearest_form hpos
      have hlt : (k + 1074).toNat * 2 ^ 52 + n < 2047 * 2 ^ 52 := by
        by_contra hc
        rw [e, min_eq_right (by omega)] at hb
        omega
      rw [min_eq_left hlt.le] at e
      have hm := mag_form neg h1 h2 h3 hlt
      rw [← e] at hm
      rw [hm, mag_eq g]
      obtain ⟨a, b⟩ := form_nearest h1 h4 h6 g.mant g.pow (mant_lt g) (pow_ge g)
      refine ⟨a, fun hh => ?_⟩
      rcases b hh with b | b
      · exact .inl b
      · right; rw [e]; omega
  refine ⟨hfin, fun g hg => ?_⟩
  rw [hreal, real_eq g, ofMag_bits]
  have hflip : ∀ y : ℚ, |(if neg then -q else q) - (if neg then -1 else 1) * y| = |q - y| := by
    intro y
    cases neg
    · simp
    · simp only [if_true]
      rw [show -q - -1 * y = -(q - y) by ring, abs_neg]
  rw [hflip]
  by_cases hs : g.sign = neg
  · rw [hs, hflip]
    obtain ⟨a, b⟩ := key g hg
    refine ⟨a, fun hh => ?_⟩
    rcases b hh with b | b
    · left; rw [b]
    · exact .inr b
  · -- the other sign: zero is nearer
    have hz : IsFinite (⟨0⟩ : PyFloat) := by rw [finite_iff]; decide
    have hz0 : (⟨0⟩ : PyFloat).mag = 0 := by
      rw [mag_eq]
      have : (⟨0⟩ : PyFloat).mant = 0 := by decide
      rw [this, Nat.cast_zero, zero_mul]
    obtain ⟨a, b⟩ := key ⟨0⟩ hz
    rw [hz0, sub_zero, abs_of_nonneg h] at a b
    have hopp : |(if neg then -q else q) - (if g.sign then -1 else 1) * g.mag| = q + g.mag := by
      have hg0 := mag_nonneg g
      cases neg <;> cases hgs : g.sign
      · exact absurd hgs hs
      · simp only [if_true, Bool.false_eq_true, if_false]
        rw [show q - -1 * g.mag = q + g.mag by ring, abs_of_nonneg (by linarith)]
      · simp only [if_true, Bool.false_eq_true, if_false]
        rw [show -q - 1 * g.mag = -(q + g.mag) by ring, abs_neg, abs_of_nonneg (by linarith)]
      · exact absurd hgs hs
    have hg0 := mag_nonneg g
    rw [hopp]
    refine ⟨by linarith, fun hh => ?_⟩
    have hgm : g.mag = 0 := by linarith
    rw [hgm, add_zero] at hh
    rcases b hh with b | b
    · left; rw [hgm, ← b]; ring
    · exact .inr b

/-- A number with at most 53 bits is kept. -/
theorem nearest_kept (neg : Bool) {m : Nat} {k : Int} (hm : m < 2 ^ 53) (hk : -1074 ≤ k) (hq : (m : ℚ) * 2 ^ k < 2 ^ 1024 - 2 ^ 970) :
    (ofMag neg (nearest ((m : ℚ) * 2 ^ k))).mag = m * 2 ^ k := by
  by_cases h0 : m = 0
  · subst h0
    rw [Nat.cast_zero, zero_mul, nearest_zero, mag_eq, mant, ofMag_expo neg (by norm_num), ofMag_frac neg (by norm_num)]; simp
  have hpos : (0 : ℚ) < m * 2 ^ k := mul_pos (by positivity) (two_pow_pos k)
  have hb := nearest_lt hpos.le hq
  obtain ⟨K, n, h1, h2, h3, h4, h5, h6, e⟩ := nearest_form hpos
  have hlt : (K + 1074).toNat * 2 ^ 52 + n < 2047 * 2 ^ 52 := by
    by_contra hc
    rw [e, min_eq_right (by omega)] at hb
    omega
  rw [min_eq_left hlt.le] at e
  rw [e, mag_form neg h1 h2 h3 hlt]
  have hK : K ≤ k := by
    rcases h4 with h4 | h4
    · omega
    · have : (m : ℚ) * 2 ^ k < 2 ^ (53 + k) := by
        rw [two_pow_add]
        exact mul_lt_mul_of_pos_right (by exact_mod_cast hm) (two_pow_pos k)
      have := two_pow_lt.1 (lt_of_le_of_lt h4 this)
      omega
  obtain ⟨i, hi⟩ := Int.eq_ofNat_of_zero_le (show 0 ≤ k - K by omega)
  have e2 : (m : ℚ) * 2 ^ k = ((m * 2 ^ i : Nat) : ℚ) * 2 ^ K := by
    rw [show k = (i : Int) + K by omega, two_pow_add, zpow_natCast]; push_cast; ring
  rw [e2, mul_div_assoc, div_self (two_pow_pos K).ne', mul_one] at h6
  rw [e2, h6.unique (rounds_self _)]

/-- A float of 16 or 32 bits is kept. -/
theorem widen_real {eb fb n : Nat} (heb : 0 < eb) (hfb : fb < 53) (hb : (2 : Int) ^ (eb - 1) + fb ≤ 1000) (h : ShortFinite eb fb n) :
    ∃ r, widen eb fb n = some r ∧ IsFinite r ∧ real r = shortReal eb fb n ∧ r.sign = decide (n / 2 ^ (eb + fb) % 2 = 1) := by
  have hp : (2 : Int) ^ (eb - 1) ≥ 1 := by exact_mod_cast Nat.one_le_two_pow
  have h2 : (2 : Int) ^ eb = 2 * 2 ^ (eb - 1) := by
    obtain ⟨k, rfl⟩ := Nat.exists_eq_succ_of_ne_zero heb.ne'
    rw [Nat.succ_sub_one, pow_succ]; ring
  have hm : n % 2 ^ fb < 2 ^ fb := Nat.mod_lt _ (by positivity)
  have he : n / 2 ^ fb % 2 ^ eb < 2 ^ eb := Nat.mod_lt _ (by positivity)
  unfold ShortFinite at h
  unfold widen shortReal
  simp only
  rw [if_neg h]
  generalize n % 2 ^ fb = m at *
  generalize n / 2 ^ fb % 2 ^ eb = e at *
  have hs : (if n / 2 ^ (eb + fb) % 2 = 1 then (-1 : ℚ) else 1) = if decide (n / 2 ^ (eb + fb) % 2 = 1) = true then -1 else 1 := by simp
  rw [hs]
  generalize decide (n / 2 ^ (eb + fb) % 2 = 1) = neg
  rw [scale_eq (by norm_num)]
  have he' : (e : Int) < 2 ^ eb := by exact_mod_cast he
  have h' : (e : Int) ≠ 2 ^ eb - 1 := by
    intro hc
    apply h
    have := Nat.one_le_two_pow (n := eb)
    zify [this]; exact hc
  generalize hB : (2 : Int) ^ (eb - 1) = B at *
  generalize hK : ((max e 1 : Nat) : Int) - (B - 1) - fb = K
  have hM : (if e = 0 then m else m + 2 ^ fb) < 2 ^ (fb + 1) := by
    rw [pow_succ]; split <;> omega
  have hM' : (if e = 0 then m else m + 2 ^ fb) < 2 ^ 53 := lt_of_lt_of_le hM (Nat.pow_le_pow_right (by norm_num) (by omega))
  have hval : (if neg = true then (-1 : ℚ) else 1) * (((if e = 0 then m else m + 2 ^ fb : Nat) : ℚ) * 2 ^ K) =
      if e = 0 then (if neg = true then -1 else 1) * ((m : ℚ) / 2 ^ fb) * 2 ^ (1 - (B - 1))
      else (if neg = true then -1 else 1) * (1 + (m : ℚ) / 2 ^ fb) * 2 ^ ((e : Int) - (B - 1)) := by
    by_cases h0 : e = 0
    · rw [if_pos h0, if_pos h0, show (1 - (B - 1) : Int) = K + (fb : Int) by subst h0; simp at hK; omega, two_pow_add, zpow_natCast]
      field_simp
    · rw [if_neg h0, if_neg h0, show ((e : Int) - (B - 1) : Int) = K + (fb : Int) by omega, two_pow_add, zpow_natCast]
      push_cast
      field_simp
      ring
  generalize (if e = 0 then m else m + 2 ^ fb) = M at *
  have hlt : (M : ℚ) * 2 ^ K < 2 ^ 1024 - 2 ^ 970 := by
    have : (M : ℚ) * 2 ^ K < 2 ^ (((fb + 1 : Nat) : Int) + K) := by
      rw [two_pow_add, zpow_natCast]
      exact mul_lt_mul_of_pos_right (by exact_mod_cast hM) (two_pow_pos K)
    have h3 : (2 : ℚ) ^ (((fb + 1 : Nat) : Int) + K) ≤ 2 ^ (1001 : Int) := zpow_le_zpow_right₀ (by norm_num) (by push_cast; omega)
    exact lt_trans (lt_of_lt_of_le this h3) (by norm_num)
  have hpos : (0 : ℚ) ≤ M * 2 ^ K := mul_nonneg (by positivity) (two_pow_pos K).le
  have hn := nearest_lt hpos hlt
  refine ⟨_, rfl, ?_, ?_, ?_⟩
  · rw [finite_iff, Nat.cast_ofNat, ofMag_expo neg (by omega)]; omega
  · rw [Nat.cast_ofNat, ofMag_real neg (by omega), nearest_kept neg hM' (by omega) hlt, hval]
  · rw [Nat.cast_ofNat, ofMag_sign neg (by omega)]

theorem nearest_infinite (neg : Bool) {q : ℚ} (hq : 2 ^ 1024 - 2 ^ 970 ≤ q) :
    ofMag neg (nearest q) = if neg then negInf else posInf := by
  rw [nearest_ge hq]; cases neg <;> decide

end PyFloat

namespace Json

theorem decimal_repr (n : Nat) : (Nat.repr n).toList = decimal n := by
  rw [Nat.toList_repr]
  induction n using Nat.strongRecOn with
  | _ n ih =>
    rw [decimal_eq]
    have hd : ∀ k, k < 10 → Nat.digitChar k = Char.ofNat (48 + k) := by decide
    split
    · rw [Nat.toDigits_of_lt_base (by assumption), hd n (by assumption)]
    · rw [Nat.toDigits_of_base_le (by norm_num) (by omega), ih (n / 10) (by omega), hd _ (by omega)]

theorem digitChar_eq : ∀ d : Fin 10, digitChar d = Char.ofNat (48 + d.val) := by decide

theorem digitChar_digit (d : Fin 10) : isDigit (digitChar d) = true := by
  rw [digitChar_eq]; exact isDigit_digit d.isLt

theorem digitChars_digits (ds : List (Fin 10)) : ∀ c ∈ ds.map digitChar, isDigit c = true := by
  intro c hc
  obtain ⟨d, _, rfl⟩ := List.mem_map.1 hc
  exact digitChar_digit d

theorem digitsVal_chars (ds : List (Fin 10)) : digitsVal (ds.map digitChar) = digitsValue ds := by
  induction ds using List.reverseRecOn with
  | nil => rfl
  | append_singleton ds d ih =>
    rw [List.map_append, List.map_singleton, digitsVal_snoc, ih, digitChar_eq, digit_char _ d.isLt, digitsValue, digitsValue,
      List.foldl_append, List.foldl_cons, List.foldl_nil]
    omega

theorem digitsValue_cons (d : Fin 10) (ds : List (Fin 10)) : digitsValue (d :: ds) = d.val * 10 ^ ds.length + digitsValue ds := by
  have h := digitsVal_append [digitChar d] (ds.map digitChar)
  rw [List.singleton_append, ← List.map_cons, digitsVal_chars, digitsVal_chars, List.length_map] at h
  rw [h, show [digitChar d] = [d].map digitChar from rfl, digitsVal_chars]
  simp [digitsValue]

theorem fractionValue_eq (ds : List (Fin 10)) : fractionValue ds = (digitsValue ds : ℚ) / 10 ^ ds.length := by
  induction ds with
  | nil => simp [fractionValue, digitsValue]
  | cons d ds ih =>
    rw [fractionValue, ih, digitsValue_cons, List.length_cons]
    push_cast
    field_simp
    ring

theorem exponent_text (e : Expo) {r : List Char} (hr : NoDigit r) : exponent (e.text ++ r) = (some e.value, r) := by
  have hne : (e.first :: e.rest).map digitChar ≠ [] := by simp
  have hs := takeWhile_digits (digitChars_digits (e.first :: e.rest)) hr
  have hsign : sign (signText e.sign ++ (e.first :: e.rest).map digitChar ++ r) =
      (decide (e.sign = some true), (e.first :: e.rest).map digitChar ++ r) := by
    have hd := digitChar_digit e.first
    cases e.sign with
    | none =>
      simp only [signText, List.nil_append, List.map_cons, List.cons_append]
      rw [sign, if_neg (by rintro h; rw [h] at hd; exact absurd hd (by decide)), if_neg (by rintro h; rw [h] at hd; exact absurd hd (by decide))]
      rfl
    | some b => cases b <;> rfl
  rw [Expo.text, List.cons_append, exponent, hsign]
  simp only
  rw [hs.1, hs.2, if_pos ⟨by cases e.upper <;> simp, hne⟩, digitsVal_chars]
  simp [Expo.value]

/-- A numeral with a fraction or an exponent is read as a float. -/
theorem number_numeral (n : Numeral) (h : n.fraction ≠ [] ∨ n.expo ≠ none) {r : List Char} (hr : Stop r) :
    number (n.text ++ r) = .ok (.float (PyFloat.ofMag n.neg (PyFloat.nearest n.magnitude)), r) ∧
      ∃ c t, n.text = c :: t ∧ startsNumber c ∧ (c = '-' → ∃ d u, t = d :: u ∧ isDigit d = true) := by
  have hn := hr.noDigit
  obtain ⟨c, t, e, h0⟩ := decimal_cons n.whole
  have hcd : isDigit c = true := decimal_digits n.whole c (by rw [e]; simp)
  have hm : c ≠ '-' := by rintro rfl; exact absurd hcd (by decide)
  -- what follows the whole part
  have hex : ∀ es, es = expoText n.expo →
      exponent (es ++ r) = (n.expo.map Expo.value, r) ∧ NoDigit (es ++ r) ∧ ∀ c, (es ++ r).head? = some c → c ≠ '.' := by
    rintro es rfl
    cases hx : n.expo with
    | none => exact ⟨exponent_none fun c hc => (hr c hc).2.2, hn, fun c hc => (hr c hc).2.1⟩
    | some x =>
      refine ⟨exponent_text x hn, ?_, ?_⟩
      · intro y hy
        have hy : some (if x.upper then 'E' else 'e') = some y := hy
        cases hy; cases x.upper <;> decide
      · intro y hy
        have hy : some (if x.upper then 'E' else 'e') = some y := hy
        cases hy; cases x.upper <;> decide
  obtain ⟨he, hed, hep⟩ := hex _ rfl
  generalize hes : expoText n.expo = es at *
  have hrest : ∀ fs, fs = (if n.fraction = [] then [] else '.' :: n.fraction.map digitChar) →
      fraction (fs ++ (es ++ r)) = (n.fraction.map digitChar, es ++ r) ∧ NoDigit (fs ++ (es ++ r)) := by
    rintro fs rfl
    split
    · rename_i hf
      rw [hf]
      exact ⟨fraction_none hep, hed⟩
    · rename_i hf
      refine ⟨fraction_some (by simpa using hf) (digitChars_digits _) hed, ?_⟩
      intro y hy
      cases hy; decide
  obtain ⟨hf, hfd⟩ := hrest _ rfl
  have htext : n.text = (if n.neg then ['-'] else []) ++ (decimal n.whole ++ ((if n.fraction = [] then [] else '.' :: n.fraction.map digitChar) ++ es)) := by
    rw [Numeral.text, hes, decimal_repr]; simp
  generalize (if n.fraction = [] then [] else '.' :: n.fraction.map digitChar) = fs at *
  have hnat : natural (decimal n.whole ++ (fs ++ (es ++ r))) = some (n.whole, fs ++ (es ++ r)) := natural_decimal _ _ hfd
  have hval : numberRest n.neg n.whole (fs ++ (es ++ r)) = (.float (PyFloat.ofMag n.neg (PyFloat.nearest n.magnitude)), r) := by
    unfold numberRest
    rw [hf]
    simp only
    rw [he]
    simp only
    rw [if_neg (by
      rintro ⟨a, b⟩
      rcases h with h | h
      · exact h (by simpa using a)
      · cases hx : n.expo with
        | none => exact h hx
        | some x => rw [hx] at b; cases b)]
    rw [PyFloat.ofDecimal, PyFloat.scale_eq (by norm_num), List.length_map, digitsVal_chars]
    congr 4
    rw [Numeral.magnitude, fractionValue_eq, zpow_sub₀ (by norm_num)]
    push_cast
    rw [zpow_natCast]
    cases n.expo <;> simp only [Option.map_none, Option.map_some, Option.getD_none, Option.getD_some, expoValue] <;> field_simp
  rw [htext]
  cases hneg : n.neg
  · rw [hneg] at hval
    simp only [Bool.false_eq_true, if_false, List.nil_append]
    refine ⟨?_, c, t ++ (fs ++ es), by rw [e]; rfl, .inr hcd, fun hc => absurd hc hm⟩
    rw [show decimal n.whole ++ (fs ++ es) ++ r = decimal n.whole ++ (fs ++ (es ++ r)) by simp]
    rw [e, List.cons_append] at hnat ⊢
    rw [number_pos hm, hnat]
    simp only [hval]
  · rw [hneg] at hval
    simp only [if_true]
    refine ⟨?_, '-', decimal n.whole ++ (fs ++ es), rfl, .inl rfl, fun _ => ⟨c, t ++ (fs ++ es), by rw [e]; rfl, hcd⟩⟩
    rw [show ['-'] ++ (decimal n.whole ++ (fs ++ es)) ++ r = '-' :: (decimal n.whole ++ (fs ++ (es ++ r))) by simp]
    rw [number_neg, hnat]
    simp only [hval]

theorem value_numeral (n : Numeral) (h : n.fraction ≠ [] ∨ n.expo ≠ none) {r : List Char} (hr : Stop r) (f : Nat) :
    value (f + 1) (n.text ++ r) = .ok (.float (PyFloat.ofMag n.neg (PyFloat.nearest n.magnitude)), r) := by
  obtain ⟨hn, c, t, e, hs, hm⟩ := number_numeral n h hr
  rw [e, List.cons_append] at hn ⊢
  rw [value_number hs (fun hc => by obtain ⟨d, u, rfl, hd⟩ := hm hc; exact ⟨d, u ++ r, rfl, hd⟩), hn]

theorem loads_numeral (n : Numeral) (h : n.fraction ≠ [] ∨ n.expo ≠ none) :
    loads (String.ofList n.text) = .ok (.float (PyFloat.ofMag n.neg (PyFloat.nearest n.magnitude))) := by
  have hv := value_numeral n h (r := []) (by intro c hc; cases hc) n.text.length
  obtain ⟨_, c, t, e, hs, _⟩ := number_numeral n h (r := []) (by intro c hc; cases hc)
  rw [List.append_nil] at hv
  have hsk : skip n.text = n.text := by rw [e, skip_cons hs.space]
  rw [loads, String.toList_ofList, hsk, hv]; rfl

theorem fractionValue_nonneg (ds : List (Fin 10)) : 0 ≤ fractionValue ds := by
  rw [fractionValue_eq]; positivity

theorem magnitude_nonneg (n : Numeral) : 0 ≤ n.magnitude := by
  have := fractionValue_nonneg n.fraction
  unfold Numeral.magnitude; positivity

end Json
end Wamp
