import Verif.Spec.Numbers
import Mathlib.Algebra.Order.Field.Power
import Mathlib.Data.Rat.Lemmas
import Mathlib.Tactic.Linarith
import Mathlib.Tactic.Positivity
import Mathlib.Tactic.FieldSimp
import Mathlib.Tactic.Ring
import Mathlib.Tactic.NormNum

/-! # Rounding to doubles -/

namespace Wamp.PyFloat

theorem scale_eq {b : Nat} (hb : 0 < b) (m : Nat) (k : Int) : scale b m k = (m : ℚ) * (b : ℚ) ^ k := by
  have hb' : (b : ℚ) ≠ 0 := by positivity
  unfold scale
  split
  · rename_i h
    obtain ⟨n, rfl⟩ := Int.eq_ofNat_of_zero_le h
    push_cast
    simp
  · rename_i h
    obtain ⟨n, hn⟩ := Int.eq_ofNat_of_zero_le (show 0 ≤ -k by omega)
    obtain rfl : k = -(n : Int) := by omega
    rw [Rat.mkRat_eq_div]
    simp only [neg_neg, Int.toNat_natCast, zpow_neg, zpow_natCast]
    push_cast
    rw [div_eq_mul_inv]

theorem num_den {q : ℚ} (h : 0 ≤ q) : (q.num.toNat : ℚ) / q.den = q := by
  have : ((q.num.toNat : Int) : ℚ) = (q.num : ℚ) := by rw [Int.toNat_of_nonneg (Rat.num_nonneg.2 h)]
  have h2 : (q.num.toNat : ℚ) = (q.num : ℚ) := by exact_mod_cast this
  rw [h2, Rat.num_div_den]

theorem two_pow_pos (k : Int) : (0 : ℚ) < 2 ^ k := zpow_pos (by norm_num) k

theorem two_pow_add (a b : Int) : (2 : ℚ) ^ (a + b) = 2 ^ a * 2 ^ b := zpow_add₀ (by norm_num) a b

theorem two_pow_lt {a b : Int} : (2 : ℚ) ^ a < 2 ^ b ↔ a < b := zpow_lt_zpow_iff_right₀ (by norm_num)

theorem two_pow_le {a b : Int} : (2 : ℚ) ^ a ≤ 2 ^ b ↔ a ≤ b := zpow_le_zpow_iff_right₀ (by norm_num)

theorem ratio_between (n d : Nat) (hn : n ≠ 0) (hd : d ≠ 0) :
    (2 : ℚ) ^ ((n.log2 : Int) - d.log2 - 1) ≤ n / d ∧ (n : ℚ) / d < 2 ^ ((n.log2 : Int) - d.log2 + 1) := by
  have a1 : (2 : ℚ) ^ (n.log2 : Int) ≤ n := by exact_mod_cast Nat.log2_self_le hn
  have a2 : (n : ℚ) < 2 ^ ((n.log2 : Int) + 1) := by exact_mod_cast (Nat.lt_log2_self : n < 2 ^ (n.log2 + 1))
  have b1 : (2 : ℚ) ^ (d.log2 : Int) ≤ d := by exact_mod_cast Nat.log2_self_le hd
  have b2 : (d : ℚ) < 2 ^ ((d.log2 : Int) + 1) := by exact_mod_cast (Nat.lt_log2_self : d < 2 ^ (d.log2 + 1))
  have hdp : (0 : ℚ) < d := by positivity
  have hnp : (0 : ℚ) < n := by positivity
  constructor
  · rw [le_div_iff₀ hdp]
    calc (2 : ℚ) ^ ((n.log2 : Int) - d.log2 - 1) * d ≤ 2 ^ ((n.log2 : Int) - d.log2 - 1) * 2 ^ ((d.log2 : Int) + 1) :=
          mul_le_mul_of_nonneg_left b2.le (two_pow_pos _).le
      _ = 2 ^ (n.log2 : Int) := by rw [← two_pow_add]; congr 1; ring
      _ ≤ n := a1
  · rw [div_lt_iff₀ hdp]
    calc (n : ℚ) < 2 ^ ((n.log2 : Int) + 1) := a2
      _ = 2 ^ ((n.log2 : Int) - d.log2 + 1) * 2 ^ (d.log2 : Int) := by rw [← two_pow_add]; congr 1; ring
      _ ≤ 2 ^ ((n.log2 : Int) - d.log2 + 1) * d := mul_le_mul_of_nonneg_left b1 (two_pow_pos _).le

theorem log2_spec {q : ℚ} (h : 0 < q) : (2 : ℚ) ^ log2 q ≤ q ∧ q < 2 ^ (log2 q + 1) := by
  have hn : q.num.toNat ≠ 0 := by
    have := Rat.num_pos.2 h; omega
  obtain ⟨lo, up⟩ := ratio_between _ _ hn q.den_nz
  rw [num_den h.le] at lo up
  unfold log2
  simp only
  rw [scale_eq (by norm_num), Nat.cast_one, one_mul]
  split
  · rename_i hk
    exact ⟨by exact_mod_cast hk, up⟩
  · rename_i hk
    refine ⟨lo, ?_⟩
    rw [sub_add_cancel]
    exact lt_of_not_ge (by exact_mod_cast hk)

theorem log2_unique {q : ℚ} (h : 0 < q) {k : Int} (h1 : (2 : ℚ) ^ k ≤ q) (h2 : q < 2 ^ (k + 1)) : log2 q = k := by
  obtain ⟨a, b⟩ := log2_spec h
  have := two_pow_lt.1 (lt_of_le_of_lt h1 b)
  have := two_pow_lt.1 (lt_of_le_of_lt a h2)
  omega

/-- The nearest integer, and of two equally near ones the even one -/
def Rounds (y : ℚ) (n : Nat) : Prop := |y - n| ≤ 1 / 2 ∧ (|y - n| = 1 / 2 → n % 2 = 0)

theorem halfEven_rounds (a b : Nat) (hb : 0 < b) : Rounds ((a : ℚ) / b) (halfEven a b) := by
  have hb' : (0 : ℚ) < b := by positivity
  have e : (a : ℚ) = b * (a / b : Nat) + (a % b : Nat) := by exact_mod_cast (Nat.div_add_mod a b).symm
  have hm : a % b < b := Nat.mod_lt _ hb
  have ey : (a : ℚ) / b = (a / b : Nat) + ((a % b : Nat) : ℚ) / b := by
    rw [e]; field_simp; 
  have lt1 : ((a % b : Nat) : ℚ) / b < 1 := by rw [div_lt_one hb']; exact_mod_cast hm
  have ge0 : (0 : ℚ) ≤ ((a % b : Nat) : ℚ) / b := by positivity
  unfold Rounds halfEven
  generalize hq : a / b = n at *
  generalize hr : ((a % b : Nat) : ℚ) / b = r at *
  rw [ey]
  split
  · rename_i h
    have : r < 1 / 2 := by
      rw [← hr, div_lt_iff₀ hb']
      have : (2 : ℚ) * (a % b : Nat) < b := by exact_mod_cast h
      linarith
    have e2 : (n : ℚ) + r - n = r := by ring
    rw [e2, abs_of_nonneg ge0]
    exact ⟨this.le, fun h => absurd h this.ne⟩
  split
  · rename_i h
    have : 1 / 2 < r := by
      rw [← hr, lt_div_iff₀ hb']
      have : (b : ℚ) < 2 * (a % b : Nat) := by exact_mod_cast h
      linarith
    have e2 : (n : ℚ) + r - ((n + 1 : Nat) : ℚ) = -(1 - r) := by push_cast; ring
    rw [e2, abs_neg, abs_of_nonneg (by linarith)]
    exact ⟨by linarith, fun h => by linarith⟩
  · rename_i h1 h2
    have : r = 1 / 2 := by
      have h3 : 2 * (a % b) = b := by omega
      have h4 : (2 : ℚ) * (a % b : Nat) = b := by exact_mod_cast h3
      rw [← hr, div_eq_iff hb'.ne']
      linarith
    subst this
    split
    · rename_i h
      have e2 : (n : ℚ) + 1 / 2 - n = 1 / 2 := by ring
      rw [e2, abs_of_nonneg (by norm_num)]
      exact ⟨le_refl _, fun _ => h⟩
    · rename_i h
      have e2 : (n : ℚ) + 1 / 2 - ((n + 1 : Nat) : ℚ) = -(1 / 2) := by push_cast; ring
      rw [e2, abs_neg, abs_of_nonneg (by norm_num)]
      exact ⟨le_refl _, fun _ => by omega⟩

theorem Rounds.unique {y : ℚ} {n m : Nat} (h1 : Rounds y n) (h2 : Rounds y m) : n = m := by
  obtain ⟨a1, a2⟩ := h1
  obtain ⟨b1, b2⟩ := h2
  have hd : |(n : ℚ) - m| ≤ 1 := by
    have := abs_sub_le (n : ℚ) y m
    rw [abs_sub_comm (n : ℚ) y] at this
    linarith
  by_contra hne
  have hz : ((n : Int) - m).natAbs = 1 := by
    have h1 : |((n : Int) - m : Int)| ≤ 1 := by exact_mod_cast hd
    have := Int.abs_eq_natAbs ((n : Int) - m)
    omega
  have h1 : (1 : ℚ) ≤ |(n : ℚ) - m| := by
    have : (1 : Int) ≤ |(n : Int) - m| := by rw [Int.abs_eq_natAbs]; omega
    exact_mod_cast this
  have := abs_sub_le (n : ℚ) y m
  rw [abs_sub_comm (n : ℚ) y] at this
  have := a2 (by linarith)
  have := b2 (by linarith)
  omega

theorem rounds_self (n : Nat) : Rounds n n := by
  unfold Rounds; rw [sub_self, abs_zero]; exact ⟨by norm_num, fun h => by norm_num at h⟩

theorem halfEvenAt_rounds {q : ℚ} (h : 0 ≤ q) (k : Int) : Rounds (q / 2 ^ k) (halfEvenAt q k) := by
  unfold halfEvenAt
  have hd : 0 < q.den := q.den_pos
  have hq := num_den h
  split
  · rename_i hk
    obtain ⟨n, rfl⟩ := Int.eq_ofNat_of_zero_le hk
    have := halfEven_rounds q.num.toNat (q.den * 2 ^ n) (by positivity)
    have e : ((q.num.toNat : Nat) : ℚ) / ((q.den * 2 ^ n : Nat) : ℚ) = q / 2 ^ (n : Int) := by
      conv => rhs; rw [← hq]
      push_cast
      rw [zpow_natCast, div_div]
    rw [e] at this
    simpa using this
  · rename_i hk
    obtain ⟨n, hn⟩ := Int.eq_ofNat_of_zero_le (show 0 ≤ -k by omega)
    obtain rfl : k = -(n : Int) := by omega
    have := halfEven_rounds (q.num.toNat * 2 ^ n) q.den hd
    have e : ((q.num.toNat * 2 ^ n : Nat) : ℚ) / (q.den : ℚ) = q / 2 ^ (-(n : Int)) := by
      conv => rhs; rw [← hq]
      push_cast
      rw [zpow_neg, zpow_natCast, div_inv_eq_mul]
      ring
    rw [e] at this
    simpa using this

/-- A number with a mantissa of at most 53 bits is its own nearest double. -/
theorem nearest_exact {m : Nat} {k : Int} (h0 : m ≠ 0) (h1 : m < 2 ^ 53) (h2 : -1074 ≤ k) (h3 : 2 ^ 52 ≤ m ∨ k = -1074) :
    nearest ((m : ℚ) * 2 ^ k) = min ((k + 1074).toNat * 2 ^ 52 + m) (2047 * 2 ^ 52) := by
  have hm : (0 : ℚ) < m := by positivity
  have hq : (0 : ℚ) < (m : ℚ) * 2 ^ k := mul_pos hm (two_pow_pos k)
  have ek : max (-1074) (log2 ((m : ℚ) * 2 ^ k) - 52) = k := by
    have u : (m : ℚ) * 2 ^ k < 2 ^ (k + 53) := by
      rw [add_comm, two_pow_add]
      exact mul_lt_mul_of_pos_right (by exact_mod_cast h1) (two_pow_pos k)
    have l := log2_spec hq
    have lt := two_pow_lt.1 (lt_of_le_of_lt l.1 u)
    rcases h3 with h3 | h3
    · have lo : (2 : ℚ) ^ (k + 52) ≤ (m : ℚ) * 2 ^ k := by
        rw [add_comm, two_pow_add]
        exact mul_le_mul_of_nonneg_right (by exact_mod_cast h3) (two_pow_pos k).le
      have := log2_unique hq lo (by rw [show k + 52 + 1 = k + 53 by ring]; exact u)
      omega
    · omega
  unfold nearest
  rw [if_neg hq.ne']
  simp only
  rw [ek]
  have := halfEvenAt_rounds hq.le k
  rw [mul_div_assoc, div_self (two_pow_pos k).ne', mul_one] at this
  rw [this.unique (rounds_self m)]

/-! ## Bits -/

theorem magBits_eq (f : PyFloat) : f.magBits = f.expo * 2 ^ 52 + f.frac := by
  unfold magBits expo frac; omega

theorem frac_lt (f : PyFloat) : f.frac < 2 ^ 52 := by unfold frac; omega

theorem expo_lt (f : PyFloat) : f.expo < 2048 := by unfold expo; omega

theorem mag_eq (f : PyFloat) : f.mag = (f.mant : ℚ) * 2 ^ f.pow := by
  have := scale_eq (b := 2) (by norm_num) f.mant f.pow
  rw [mag, this]; norm_num

theorem ofMag_magBits (f : PyFloat) : ofMag f.sign f.magBits = f := by
  obtain ⟨b⟩ := f
  have hb := b.isLt
  unfold ofMag sign magBits
  simp only [PyFloat.mk.injEq]
  apply BitVec.eq_of_toNat_eq
  rw [BitVec.toNat_ofNat]
  simp only [decide_eq_true_eq]
  split <;> omega

theorem nearest_zero : nearest 0 = 0 := rfl

/-- A finite double is its own nearest double. -/
theorem nearest_mag (f : PyFloat) (h : f.expo ≠ 2047) : nearest f.mag = f.magBits := by
  have h1 := frac_lt f
  have h2 := expo_lt f
  rw [mag_eq, magBits_eq]
  by_cases h0 : f.mant = 0
  · rw [h0]
    unfold mant at h0
    split at h0
    · rename_i he
      rw [he, h0]; norm_num [nearest_zero]
    · omega
  · rw [nearest_exact h0]
    · unfold mant pow
      split
      · rename_i he; rw [he]; simp; omega
      · rename_i he
        have : ((f.expo : Int) - 1075 + 1074).toNat = f.expo - 1 := by omega
        rw [this]; omega
    · unfold mant; split <;> omega
    · unfold pow; split <;> omega
    · unfold mant pow
      split
      · exact .inr rfl
      · exact .inl (by omega)

/-- The decimal `repr` writes reads back. -/
theorem nearest_shortest (f : PyFloat) (h : f.expo ≠ 2047) : nearest (scale 10 f.shortest.1 f.shortest.2) = f.magBits := by
  unfold shortest
  split
  · rename_i h0
    have := nearest_mag f h
    rw [mag_eq, h0] at this
    rw [← this, scale_eq (by norm_num)]
    norm_num
  · split
    · rename_i dx hdx
      have hm := List.mem_of_head? hdx
      rw [List.mem_flatMap] at hm
      obtain ⟨p, _, hp⟩ := hm
      unfold candidates at hp
      simp only at hp
      rw [List.mem_filter] at hp
      simpa using hp.2
    · have key := nearest_mag f h
      rw [mag_eq] at key
      rw [← key]
      split
      · rename_i hk
        obtain ⟨n, hn⟩ := Int.eq_ofNat_of_zero_le hk
        rw [hn, scale_eq (by norm_num)]
        simp
      · rename_i hk
        obtain ⟨n, hn⟩ := Int.eq_ofNat_of_zero_le (show 0 ≤ -f.pow by omega)
        have hp : f.pow = -(n : Int) := by omega
        rw [hp, scale_eq (by norm_num)]
        congr 1
        simp only [neg_neg, Int.toNat_natCast, zpow_neg, zpow_natCast]
        push_cast
        have : (10 : ℚ) ^ n = 5 ^ n * 2 ^ n := by rw [← mul_pow]; norm_num
        rw [this]
        field_simp

theorem ofDecimal_shortest (f : PyFloat) (h : f.expo ≠ 2047) : ofDecimal f.sign f.shortest.1 f.shortest.2 = f := by
  rw [ofDecimal, nearest_shortest f h, ofMag_magBits]

/-- Trailing zeros do not matter. -/
theorem ofDecimal_zero (neg : Bool) (d n : Nat) : ofDecimal neg (d * 10 ^ n * 10) (-1) = ofDecimal neg d n := by
  unfold ofDecimal
  rw [scale_eq (by norm_num), scale_eq (by norm_num)]
  congr 2
  simp only [zpow_neg, zpow_one, zpow_natCast]
  push_cast
  field_simp

/-! ## The nearest double -/

theorem Rounds.le {y : ℚ} {n : Nat} (h : Rounds y n) (j : Nat) : |y - n| ≤ |y - j| := by
  by_cases hj : j = n
  · rw [hj]
  · have h1 : (1 : ℚ) ≤ |(n : ℚ) - j| := by
      have : (1 : Int) ≤ |(n : Int) - j| := by rw [Int.abs_eq_natAbs]; omega
      exact_mod_cast this
    have := abs_sub_le (n : ℚ) y j
    rw [abs_sub_comm (n : ℚ) y] at this
    have := h.1
    linarith

theorem Rounds.tie {y : ℚ} {n : Nat} (h : Rounds y n) {j : Nat} (e : |y - j| = |y - n|) : j = n ∨ n % 2 = 0 := by
  by_cases hj : j = n
  · exact .inl hj
  · have h1 : (1 : ℚ) ≤ |(n : ℚ) - j| := by
      have : (1 : Int) ≤ |(n : Int) - j| := by rw [Int.abs_eq_natAbs]; omega
      exact_mod_cast this
    have := abs_sub_le (n : ℚ) y j
    rw [abs_sub_comm (n : ℚ) y] at this
    have := h.1
    exact .inr (h.2 (by linarith))

/-- What `nearest` computes for positive `q`: a multiple of `2 ^ k`, with 53 bits unless `k` is as small as possible -/
theorem nearest_form {q : ℚ} (h : 0 < q) : ∃ (k : Int) (n : Nat), -1074 ≤ k ∧ n ≤ 2 ^ 53 ∧ (2 ^ 52 ≤ n ∨ k = -1074) ∧
    (k = -1074 ∨ (2 : ℚ) ^ (k + 52) ≤ q) ∧ q < 2 ^ (k + 53) ∧ Rounds (q / 2 ^ k) n ∧
    nearest q = min ((k + 1074).toNat * 2 ^ 52 + n) (2047 * 2 ^ 52) := by
  obtain ⟨l1, l2⟩ := log2_spec h
  have hk : ∃ k, k = max (-1074) (log2 q - 52) := ⟨_, rfl⟩
  obtain ⟨k, hk⟩ := hk
  have hr := halfEvenAt_rounds h.le k
  have hp := two_pow_pos k
  have up : q < 2 ^ (k + 53) := lt_of_lt_of_le l2 (two_pow_le.2 (by omega))
  have up' : q / 2 ^ k < 2 ^ 53 := by
    rw [div_lt_iff₀ hp]
    have : (2 : ℚ) ^ (k + 53) = 2 ^ 53 * 2 ^ k := by rw [add_comm, two_pow_add]; norm_num
    rw [← this]; exact up
  have hn : halfEvenAt q k ≤ 2 ^ 53 := by
    by_contra hc
    have h1 := hr.le (2 ^ 53)
    have hc : 2 ^ 53 + 1 ≤ halfEvenAt q k := by omega
    have hc' : (2 : ℚ) ^ 53 + 1 ≤ (halfEvenAt q k : ℚ) := by exact_mod_cast hc
    have := hr.1
    rw [abs_of_nonpos (by linarith)] at this
    linarith
  refine ⟨k, halfEvenAt q k, by omega, hn, ?_, ?_, up, hr, ?_⟩
  · by_cases h1 : k = -1074
    · exact .inr h1
    · left
      have lo : (2 : ℚ) ^ 52 ≤ q / 2 ^ k := by
        rw [le_div_iff₀ hp]
        calc (2 : ℚ) ^ 52 * 2 ^ k = 2 ^ (52 + k) := by rw [two_pow_add]; norm_num
          _ ≤ 2 ^ log2 q := two_pow_le.2 (by omega)
          _ ≤ q := l1
      by_contra hc
      have hc : halfEvenAt q k + 1 ≤ 2 ^ 52 := by omega
      have hc' : (halfEvenAt q k : ℚ) + 1 ≤ (2 : ℚ) ^ 52 := by exact_mod_cast hc
      have := hr.1
      rw [abs_of_nonneg (by linarith)] at this
      linarith
  · by_cases h1 : k = -1074
    · exact .inl h1
    · right
      exact le_trans (two_pow_le.2 (by omega)) l1
  · unfold nearest
    rw [if_neg h.ne']
    simp only
    rw [← hk]

theorem ofMag_expo (neg : Bool) {b : Nat} (h : b < 2 ^ 63) : (ofMag neg b).expo = b / 2 ^ 52 := by
  unfold ofMag expo
  simp only [BitVec.toNat_ofNat]
  split <;> omega

theorem ofMag_frac (neg : Bool) {b : Nat} (_ : b < 2 ^ 63) : (ofMag neg b).frac = b % 2 ^ 52 := by
  unfold ofMag frac
  simp only [BitVec.toNat_ofNat]
  split <;> omega

theorem ofMag_sign (neg : Bool) {b : Nat} (h : b < 2 ^ 63) : (ofMag neg b).sign = neg := by
  unfold ofMag sign
  simp only [BitVec.toNat_ofNat]
  cases neg
  · simp; omega
  · simp only [if_true, decide_eq_true_eq]; omega

/-- The number those bits stand for -/
theorem mag_form (neg : Bool) {k : Int} {n : Nat} (h1 : -1074 ≤ k) (h2 : n ≤ 2 ^ 53) (h3 : 2 ^ 52 ≤ n ∨ k = -1074)
    (hb : (k + 1074).toNat * 2 ^ 52 + n < 2047 * 2 ^ 52) :
    (ofMag neg ((k + 1074).toNat * 2 ^ 52 + n)).mag = (n : ℚ) * 2 ^ k := by
  obtain ⟨j, hj⟩ := Int.eq_ofNat_of_zero_le (show 0 ≤ k + 1074 by omega)
  have hk : k = (j : Int) - 1074 := by omega
  subst hk
  have hj' : ((j : Int) - 1074 + 1074).toNat = j := by omega
  rw [hj'] at hb ⊢
  rw [mag_eq, mant, pow, ofMag_expo neg (by omega), ofMag_frac neg (by omega)]
  by_cases c0 : (j * 2 ^ 52 + n) / 2 ^ 52 = 0
  · have hj0 : j = 0 := by omega
    subst hj0
    have : n < 2 ^ 52 := by omega
    rw [if_pos c0, if_pos c0, Nat.zero_mul, Nat.zero_add, Nat.mod_eq_of_lt this]
    norm_num
  · rw [if_neg c0, if_neg c0]
    by_cases c1 : n = 2 ^ 53
    · subst c1
      have e1 : (j * 2 ^ 52 + 2 ^ 53) / 2 ^ 52 = j + 2 := by omega
      have e2 : (j * 2 ^ 52 + 2 ^ 53) % 2 ^ 52 = 0 := by omega
      rw [e1, e2]
      have : (((j + 2 : Nat) : Int) - 1075) = ((j : Int) - 1074) + 1 := by push_cast; ring
      rw [this, two_pow_add]
      push_cast
      ring
    · have hlo : 2 ^ 52 ≤ n := by
        rcases h3 with h3 | h3
        · exact h3
        · have : j = 0 := by omega
          subst this; omega
      have e1 : (j * 2 ^ 52 + n) / 2 ^ 52 = j + 1 := by omega
      have e2 : (j * 2 ^ 52 + n) % 2 ^ 52 + 2 ^ 52 = n := by omega
      rw [e1, e2]
      congr 2
      push_cast; ring

theorem mant_lt (f : PyFloat) : f.mant < 2 ^ 53 := by
  have := frac_lt f
  unfold mant; split <;> omega

theorem pow_ge (f : PyFloat) : -1074 ≤ f.pow := by
  unfold pow; split <;> omega

/-- No finite double is nearer than a multiple of `2 ^ k` as above. -/
theorem form_nearest {q : ℚ} {k : Int} {n : Nat} (h1 : -1074 ≤ k) (h4 : k = -1074 ∨ (2 : ℚ) ^ (k + 52) ≤ q)
    (h5 : Rounds (q / 2 ^ k) n) (m : Nat) (p : Int) (hm : m < 2 ^ 53) (hp : -1074 ≤ p) :
    |q - n * 2 ^ k| ≤ |q - m * 2 ^ p| ∧ (|q - m * 2 ^ p| = |q - n * 2 ^ k| → (m : ℚ) * 2 ^ p = n * 2 ^ k ∨ n % 2 = 0) := by
  have hk := two_pow_pos k
  have scale : ∀ j : Nat, |q - j * 2 ^ k| = |q / 2 ^ k - j| * 2 ^ k := by
    intro j
    rw [← abs_of_pos hk, ← abs_mul, abs_of_pos hk, sub_mul, div_mul_cancel₀ _ hk.ne']
  have mono : ∀ j : Nat, |q - n * 2 ^ k| ≤ |q - j * 2 ^ k| := by
    intro j
    rw [scale, scale]
    exact mul_le_mul_of_nonneg_right (h5.le j) hk.le
  by_cases hc : k ≤ p
  · obtain ⟨i, hi⟩ := Int.eq_ofNat_of_zero_le (show 0 ≤ p - k by omega)
    have e : (m : ℚ) * 2 ^ p = ((m * 2 ^ i : Nat) : ℚ) * 2 ^ k := by
      rw [show p = (i : Int) + k by omega, two_pow_add, zpow_natCast]; push_cast; ring
    rw [e]
    refine ⟨mono _, fun h => ?_⟩
    rw [scale, scale] at h
    rcases h5.tie (mul_right_cancel₀ hk.ne' h) with h | h
    · left; rw [h]
    · right; exact h
  · have hq : (2 : ℚ) ^ (k + 52) ≤ q := by
      rcases h4 with h4 | h4
      · omega
      · exact h4
    have lt : (m : ℚ) * 2 ^ p < 2 ^ (k + 52) := by
      calc (m : ℚ) * 2 ^ p ≤ m * 2 ^ (k - 1) := mul_le_mul_of_nonneg_left (two_pow_le.2 (by omega)) (by positivity)
        _ < 2 ^ 53 * 2 ^ (k - 1) := mul_lt_mul_of_pos_right (by exact_mod_cast hm) (two_pow_pos _)
        _ = 2 ^ (53 + (k - 1)) := by rw [two_pow_add]; norm_num
        _ = 2 ^ (k + 52) := by congr 1; ring
    have h6 := mono (2 ^ 52)
    have e : ((2 ^ 52 : Nat) : ℚ) * 2 ^ k = 2 ^ (k + 52) := by rw [add_comm, two_pow_add]; norm_num
    rw [e, abs_of_nonneg (show (0 : ℚ) ≤ q - 2 ^ (k + 52) by linarith)] at h6
    rw [abs_of_nonneg (show (0 : ℚ) ≤ q - m * 2 ^ p by linarith)]
    refine ⟨by linarith, fun h => ?_⟩
    linarith

end Wamp.PyFloat
