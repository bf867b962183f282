import Verif.Proofs.OneReading
import Verif.Proofs.Conforms

/-! # The shortest decimal that reads back -/

set_option exponentiation.threshold 2000

namespace Wamp.PyFloat
open Spec Json

/-! ## Rounding is monotone -/

theorem Rounds.mono {y y' : ℚ} {n n' : Nat} (h : Rounds y n) (h' : Rounds y' n') (hy : y ≤ y') : n ≤ n' := by
  by_contra hc
  have hc' : ((n' + 1 : Nat) : ℚ) ≤ n := by exact_mod_cast (by omega : n' + 1 ≤ n)
  push_cast at hc'
  have a := abs_le.1 h.1
  have b := abs_le.1 h'.1
  have e : y = y' := by linarith
  subst e
  exact hc (h.unique h').le

theorem nearest_mono {q q' : ℚ} (h : 0 ≤ q) (hq : q ≤ q') : nearest q ≤ nearest q' := by
  rcases h.eq_or_lt with rfl | hp
  · rw [nearest_zero]; exact Nat.zero_le _
  obtain ⟨k, n, a1, a2, a3, a4, a5, a6, e⟩ := nearest_form hp
  obtain ⟨k', n', b1, b2, b3, b4, b5, b6, e'⟩ := nearest_form (lt_of_lt_of_le hp hq)
  rw [e, e']
  apply min_le_min_right
  have hk : k ≤ k' := by
    by_contra hc
    rcases a4 with a4 | a4
    · omega
    · have := two_pow_lt.1 (lt_of_le_of_lt a4 (lt_of_le_of_lt hq b5))
      omega
  rcases hk.eq_or_lt with rfl | hk
  · have := a6.mono b6 (div_le_div_of_nonneg_right hq (two_pow_pos k).le)
    omega
  · have h52 : 2 ^ 52 ≤ n' := b3.resolve_right (by omega)
    have : (k + 1074).toNat + 1 ≤ (k' + 1074).toNat := by omega
    have := Nat.mul_le_mul_right (2 ^ 52) this
    omega

theorem nearest_between {q r s : ℚ} {b : Nat} (h : 0 ≤ q) (h1 : q ≤ r) (h2 : r ≤ s) (hq : nearest q = b) (hs : nearest s = b) : nearest r = b :=
  le_antisymm (hs ▸ nearest_mono (h.trans h1) h2) (hq ▸ nearest_mono h h1)

/-! ## Powers of ten -/

theorem ten_pow_pos (k : Int) : (0 : ℚ) < 10 ^ k := zpow_pos (by norm_num) k
theorem ten_pow_add (a b : Int) : (10 : ℚ) ^ (a + b) = 10 ^ a * 10 ^ b := zpow_add₀ (by norm_num) a b
theorem ten_pow_le {a b : Int} : (10 : ℚ) ^ a ≤ 10 ^ b ↔ a ≤ b := zpow_le_zpow_iff_right₀ (by norm_num)
theorem ten_pow_lt {a b : Int} : (10 : ℚ) ^ a < 10 ^ b ↔ a < b := zpow_lt_zpow_iff_right₀ (by norm_num)

theorem decimal_length (n : Nat) (h : n ≠ 0) : 0 < (decimal n).length ∧ 10 ^ ((decimal n).length - 1) ≤ n ∧ n < 10 ^ (decimal n).length := by
  induction n using Nat.strongRecOn with
  | _ n ih =>
    rw [decimal_eq]
    split
    · simp; omega
    · rename_i h10
      obtain ⟨h1, h2, h3⟩ := ih (n / 10) (by omega) (by omega)
      rw [List.length_append, List.length_singleton, Nat.add_sub_cancel]
      refine ⟨by omega, ?_, ?_⟩
      · obtain ⟨l, hl⟩ : ∃ l, (decimal (n / 10)).length = l + 1 := ⟨_, (Nat.succ_pred_eq_of_pos h1).symm⟩
        rw [hl] at h2 ⊢
        rw [Nat.add_sub_cancel] at h2
        rw [Nat.pow_succ]; omega
      · rw [Nat.pow_succ]; omega

theorem log10_spec {q : ℚ} (h : 0 < q) : (10 : ℚ) ^ log10 q ≤ q ∧ q < 10 ^ (log10 q + 1) := by
  have hq := num_den h.le
  have hn : 0 < q.num.toNat := by have := Rat.num_pos.2 h; omega
  have hd : 0 < q.den := q.den_pos
  have hn' : (0 : ℚ) < q.num.toNat := by exact_mod_cast hn
  have hd' : (0 : ℚ) < q.den := by exact_mod_cast hd
  unfold log10
  generalize q.num.toNat = a at *
  generalize q.den = b at *
  subst hq
  split
  · rename_i h1
    rw [one_le_div hd'] at h1
    have h1 : b ≤ a := by exact_mod_cast h1
    have hf : a / b ≠ 0 := by have := Nat.div_pos h1 hd; omega
    obtain ⟨l1, l2, l3⟩ := decimal_length (a / b) hf
    generalize (decimal (a / b)).length = l at *
    obtain ⟨l, rfl⟩ : ∃ k, l = k + 1 := ⟨l - 1, by omega⟩
    rw [Nat.add_sub_cancel] at l2
    have e1 : (((l + 1 : Nat) : Int) - 1) = (l : Int) := by push_cast; ring
    rw [e1, show (l : Int) + 1 = ((l + 1 : Nat) : Int) by push_cast; ring, zpow_natCast, zpow_natCast]
    have l2' : 10 ^ l * b ≤ a := by rwa [Nat.le_div_iff_mul_le hd] at l2
    have l3' : a < 10 ^ (l + 1) * b := by rwa [Nat.div_lt_iff_lt_mul hd] at l3
    constructor
    · rw [le_div_iff₀ hd']; exact_mod_cast l2'
    · rw [div_lt_iff₀ hd']; exact_mod_cast l3'
  · rename_i h1
    rw [one_le_div hd', not_le] at h1
    have h1 : a < b := by exact_mod_cast h1
    have hf : b / a ≠ 0 := by have := Nat.div_pos h1.le hn; omega
    obtain ⟨l1, l2, l3⟩ := decimal_length (b / a) hf
    generalize (decimal (b / a)).length = l at *
    obtain ⟨l, rfl⟩ : ∃ k, l = k + 1 := ⟨l - 1, by omega⟩
    rw [Nat.add_sub_cancel] at l2
    simp only [Nat.add_sub_cancel]
    have l2' : 10 ^ l * a ≤ b := by rwa [Nat.le_div_iff_mul_le hn] at l2
    have l3' : b < 10 ^ (l + 1) * a := by rwa [Nat.div_lt_iff_lt_mul hn] at l3
    have l2q : (10 : ℚ) ^ l * a ≤ b := by exact_mod_cast l2'
    have l3q : (b : ℚ) < 10 ^ (l + 1) * a := by exact_mod_cast l3'
    have hp : (0 : ℚ) < 10 ^ l := by positivity
    split
    · rename_i h2
      have h2q : (b : ℚ) ≤ a * 10 ^ l := by exact_mod_cast h2
      constructor
      · rw [zpow_neg, zpow_natCast, le_div_iff₀ hd', inv_mul_le_iff₀ hp]; linarith
      · rw [ten_pow_add, zpow_neg, zpow_natCast, div_lt_iff₀ hd', mul_assoc, lt_inv_mul_iff₀ hp]
        norm_num; linarith
    · rename_i h2
      have h2q : (a : ℚ) * 10 ^ l < b := by exact_mod_cast (not_le.1 h2)
      have e : -(l : Int) - 1 = -((l + 1 : Nat) : Int) := by push_cast; ring
      constructor
      · rw [e, zpow_neg, zpow_natCast, le_div_iff₀ hd', inv_mul_le_iff₀ (by positivity)]; linarith
      · rw [sub_add_cancel, zpow_neg, zpow_natCast, div_lt_iff₀ hd', lt_inv_mul_iff₀ hp]; linarith

/-! ## Trailing zeros -/

theorem strip_value : ∀ (k d : Nat) (x : Int), ((strip k (d, x)).1 : ℚ) * 10 ^ (strip k (d, x)).2 = (d : ℚ) * 10 ^ x
  | 0, d, x => rfl
  | k + 1, d, x => by
    rw [strip]
    split
    · rename_i h
      rw [strip_value k, ten_pow_add, zpow_one]
      have : (d : ℚ) = 10 * (d / 10 : Nat) := by exact_mod_cast (by omega : d = 10 * (d / 10))
      rw [this]; ring
    · rfl

theorem strip_le : ∀ (k d : Nat) (x : Int), (strip k (d, x)).1 ≤ d
  | 0, d, x => le_refl _
  | k + 1, d, x => by
    rw [strip]
    split
    · exact le_trans (strip_le k _ _) (Nat.div_le_self _ _)
    · exact le_refl _

theorem strip_ten (k p : Nat) (hp : 0 < p) (x : Int) : (strip (k + 1) (10 ^ p, x)).1 < 10 ^ p := by
  obtain ⟨p, rfl⟩ : ∃ j, p = j + 1 := ⟨p - 1, by omega⟩
  have h0 : 0 < 10 ^ p := by positivity
  rw [strip, if_pos ⟨by positivity, by rw [Nat.pow_succ]; omega⟩, Nat.pow_succ, Nat.mul_div_cancel _ (by norm_num)]
  exact lt_of_le_of_lt (strip_le k _ _) (by omega)

/-! ## Two decimals around a number -/

/-- The last digit is worth this much. -/
abbrev unit (q : ℚ) (p : Nat) : Int := log10 q - (p : Int) + 1

theorem candidates_eq {q : ℚ} (h : 0 < q) (b p : Nat) : ∃ lo near far : Nat,
    (near = lo ∧ far = lo + 1 ∨ near = lo + 1 ∧ far = lo) ∧ (lo : ℚ) * 10 ^ unit q p ≤ q ∧ q < ((lo : ℚ) + 1) * 10 ^ unit q p ∧
    |q - near * 10 ^ unit q p| ≤ |q - far * 10 ^ unit q p| ∧
    candidates q b p = ([near, far].map fun d => strip 20 (d, unit q p)).filter fun dx => nearest (scale 10 dx.1 dx.2) = b := by
  unfold candidates
  simp only
  have hx : ∃ x, x = unit q p := ⟨_, rfl⟩
  obtain ⟨x, hx⟩ := hx
  rw [← hx]
  have hpos := ten_pow_pos x
  obtain ⟨num, den, hden, e1, e2⟩ : ∃ num den : Nat, 0 < den ∧ (num : ℚ) / den = q / 10 ^ x ∧
      (if 0 ≤ x then (q.num.toNat, q.den * 10 ^ x.toNat) else (q.num.toNat * 10 ^ (-x).toNat, q.den)) = (num, den) := by
    have hq := num_den h.le
    split
    · rename_i h0
      obtain ⟨n, rfl⟩ := Int.eq_ofNat_of_zero_le h0
      refine ⟨_, _, ?_, ?_, rfl⟩
      · have := q.den_pos; positivity
      · conv => rhs; rw [← hq]
        push_cast
        rw [Int.toNat_natCast, zpow_natCast, div_div]
    · rename_i h0
      obtain ⟨n, hn⟩ := Int.eq_ofNat_of_zero_le (show 0 ≤ -x by omega)
      obtain rfl : x = -(n : Int) := by omega
      refine ⟨_, _, q.den_pos, ?_, rfl⟩
      conv => rhs; rw [← hq]
      push_cast
      rw [neg_neg, Int.toNat_natCast, zpow_neg, zpow_natCast, div_inv_eq_mul]
      ring
  rw [show log10 q - (p : Int) + 1 = x from hx.symm, e2]
  simp only
  have hd' : (0 : ℚ) < den := by exact_mod_cast hden
  have hm := Nat.div_add_mod num den
  have hr := Nat.mod_lt num hden
  generalize num / den = lo at *
  generalize num % den = r at *
  have hqe : q = (lo + r / den) * 10 ^ x := by
    have e3 : (num : ℚ) = den * lo + r := by exact_mod_cast hm.symm
    have e4 : q = num / den * 10 ^ x := by rw [e1, div_mul_cancel₀ _ hpos.ne']
    rw [e4, e3]; field_simp
  have r0 : (0 : ℚ) ≤ r / den := by positivity
  have r1 : (r : ℚ) / den < 1 := by rw [div_lt_one hd']; exact_mod_cast hr
  generalize ht : (r : ℚ) / den = t at *
  have d1 : q - lo * 10 ^ x = t * 10 ^ x := by rw [hqe]; ring
  have d2 : q - ((lo + 1 : Nat) : ℚ) * 10 ^ x = -((1 - t) * 10 ^ x) := by rw [hqe]; push_cast; ring
  have a1 : |q - lo * 10 ^ x| = t * 10 ^ x := by rw [d1, abs_of_nonneg (mul_nonneg r0 hpos.le)]
  have a2 : |q - ((lo + 1 : Nat) : ℚ) * 10 ^ x| = (1 - t) * 10 ^ x := by
    rw [d2, abs_neg, abs_of_nonneg (mul_nonneg (by linarith) hpos.le)]
  have b1 : (lo : ℚ) * 10 ^ x ≤ q := by have := mul_nonneg r0 hpos.le; linarith
  have b2 : q < ((lo : ℚ) + 1) * 10 ^ x := by rw [hqe]; exact mul_lt_mul_of_pos_right (by linarith) hpos
  split
  · rename_i hc
    refine ⟨lo, lo, lo + 1, .inl ⟨rfl, rfl⟩, b1, b2, ?_, rfl⟩
    rw [a1, a2]
    refine mul_le_mul_of_nonneg_right ?_ hpos.le
    have h2 : 2 * r ≤ den := by omega
    have h2' : (2 : ℚ) * r ≤ den := by exact_mod_cast h2
    have : t ≤ 1 / 2 := by rw [← ht, div_le_iff₀ hd']; linarith
    linarith
  · rename_i hc
    refine ⟨lo, lo + 1, lo, .inr ⟨rfl, rfl⟩, b1, b2, ?_, rfl⟩
    rw [a1, a2]
    refine mul_le_mul_of_nonneg_right ?_ hpos.le
    have h2 : den ≤ 2 * r := by omega
    have h2' : (den : ℚ) ≤ 2 * r := by exact_mod_cast h2
    have : 1 / 2 ≤ t := by rw [← ht, le_div_iff₀ hd']; linarith
    linarith

/-- No decimal with so few digits lies between the two. -/
theorem no_between {q : ℚ} (h : 0 < q) {p d lo : Nat} {y : Int} (hp : 0 < p) (hd : d < 10 ^ p) (h1 : (lo : ℚ) * 10 ^ unit q p ≤ q)
    (h2 : q < ((lo : ℚ) + 1) * 10 ^ unit q p) :
    (d : ℚ) * 10 ^ y ≤ lo * 10 ^ unit q p ∨ ((lo : ℚ) + 1) * 10 ^ unit q p ≤ d * 10 ^ y := by
  have hu := ten_pow_pos (unit q p)
  by_cases hy : unit q p ≤ y
  · obtain ⟨n, hn⟩ := Int.eq_ofNat_of_zero_le (show 0 ≤ y - unit q p by omega)
    have e : (d : ℚ) * 10 ^ y = ((d * 10 ^ n : Nat) : ℚ) * 10 ^ unit q p := by
      rw [show y = (n : Int) + unit q p by omega, ten_pow_add, zpow_natCast]; push_cast; ring
    rw [e]
    rcases Nat.lt_or_ge lo (d * 10 ^ n) with hc | hc
    · right
      exact mul_le_mul_of_nonneg_right (by exact_mod_cast hc) hu.le
    · left
      exact mul_le_mul_of_nonneg_right (by exact_mod_cast hc) hu.le
  · left
    have l := (log10_spec h).1
    have hlt : (d : ℚ) * 10 ^ y ≤ 10 ^ log10 q := by
      calc (d : ℚ) * 10 ^ y ≤ 10 ^ p * 10 ^ (unit q p - 1) :=
            mul_le_mul (by exact_mod_cast hd.le) (ten_pow_le.2 (by omega)) (ten_pow_pos y).le (by positivity)
        _ = 10 ^ ((p : Int) + (unit q p - 1)) := by rw [ten_pow_add, zpow_natCast]
        _ = 10 ^ log10 q := by congr 1; unfold unit; ring
    refine le_trans hlt ?_
    -- `10 ^ log10 q` is a multiple of the unit
    obtain ⟨j, rfl⟩ : ∃ j, p = j + 1 := ⟨p - 1, by omega⟩
    have e : (10 : ℚ) ^ log10 q = ((10 ^ j : Nat) : ℚ) * 10 ^ unit q (j + 1) := by
      have : log10 q = (j : Int) + unit q (j + 1) := by unfold unit; push_cast; ring
      conv => lhs; rw [this, ten_pow_add, zpow_natCast]
      push_cast; rfl
    rw [e] at l ⊢
    have : ((10 ^ j : Nat) : ℚ) < lo + 1 := lt_of_mul_lt_mul_right (lt_of_le_of_lt l h2) hu.le
    have : 10 ^ j < lo + 1 := by exact_mod_cast this
    exact mul_le_mul_of_nonneg_right (by exact_mod_cast (by omega : 10 ^ j ≤ lo)) hu.le

theorem scale_strip (k d : Nat) (x : Int) : scale 10 (strip k (d, x)).1 (strip k (d, x)).2 = (d : ℚ) * 10 ^ x := by
  rw [scale_eq (by norm_num)]
  exact strip_value k d x

/-- What the list of candidates holds: one that reads back if there is any with so few digits, and the nearest first -/
theorem candidates_best {q : ℚ} (h : 0 < q) {b p : Nat} (hb : nearest q = b) (hp : 0 < p) :
    (∀ (d : Nat) (y : Int), d < 10 ^ p → nearest ((d : ℚ) * 10 ^ y) = b → candidates q b p ≠ []) ∧
    ∀ dx, (candidates q b p).head? = some dx → dx.1 < 10 ^ p ∧
      ∀ (d : Nat) (y : Int), d < 10 ^ p → nearest ((d : ℚ) * 10 ^ y) = b → |q - dx.1 * 10 ^ dx.2| ≤ |q - d * 10 ^ y| := by
  obtain ⟨lo, near, far, hnf, h1, h2, hle, e⟩ := candidates_eq h b p
  have hu := ten_pow_pos (unit q p)
  have side : ∀ (d : Nat) (y : Int), d < 10 ^ p → nearest ((d : ℚ) * 10 ^ y) = b →
      ∃ c, (c = lo ∨ c = lo + 1) ∧ nearest ((c : ℚ) * 10 ^ unit q p) = b ∧ |q - c * 10 ^ unit q p| ≤ |q - d * 10 ^ y| := by
    intro d y hd hy
    have h0 : (0 : ℚ) ≤ d * 10 ^ y := mul_nonneg (by positivity) (ten_pow_pos y).le
    rcases no_between h (y := y) hp hd h1 h2 with hc | hc
    · refine ⟨lo, .inl rfl, nearest_between h0 hc h1 hy hb, ?_⟩
      rw [abs_of_nonneg (by linarith), abs_of_nonneg (by linarith)]; linarith
    · refine ⟨lo + 1, .inr rfl, ?_, ?_⟩
      · push_cast; exact nearest_between h.le h2.le hc hb hy
      · push_cast; rw [abs_of_nonpos (by linarith), abs_of_nonpos (by linarith)]; linarith
  have both : ∀ c, (c = lo ∨ c = lo + 1) → c = near ∨ c = far := by
    rcases hnf with ⟨rfl, rfl⟩ | ⟨rfl, rfl⟩ <;> rintro c (rfl | rfl) <;> simp
  have small : ∀ c, (c = near ∨ c = far) → (strip 20 (c, unit q p)).1 < 10 ^ p := by
    have hlo : lo < 10 ^ p := by
      have : (lo : ℚ) * 10 ^ unit q p < 10 ^ p * 10 ^ unit q p := by
        refine lt_of_le_of_lt h1 (lt_of_lt_of_eq (log10_spec h).2 ?_)
        rw [← zpow_natCast, ← ten_pow_add]; congr 1; unfold unit; ring
      have := lt_of_mul_lt_mul_right this hu.le
      exact_mod_cast this
    have : ∀ c, c ≤ lo + 1 → (strip 20 (c, unit q p)).1 < 10 ^ p := by
      intro c hc
      by_cases hc' : c = 10 ^ p
      · rw [hc']; exact strip_ten 19 p hp _
      · exact lt_of_le_of_lt (strip_le 20 _ _) (by omega)
    intro c hc
    apply this
    rcases hnf with ⟨rfl, rfl⟩ | ⟨rfl, rfl⟩ <;> omega
  have hval : ∀ c, ((strip 20 (c, unit q p)).1 : ℚ) * 10 ^ (strip 20 (c, unit q p)).2 = c * 10 ^ unit q p := fun c => strip_value 20 c _
  rw [e]
  simp only [List.map_cons, List.map_nil, List.filter_cons, List.filter_nil, scale_strip, decide_eq_true_eq]
  by_cases hn : nearest ((near : ℚ) * 10 ^ unit q p) = b
  · rw [if_pos hn]
    refine ⟨fun _ _ _ _ h => by simp at h, ?_⟩
    rintro dx hdx
    obtain rfl : strip 20 (near, unit q p) = dx := by simpa using hdx
    refine ⟨small near (.inl rfl), fun d y hd hy => ?_⟩
    rw [hval]
    obtain ⟨c, hc, _, hc2⟩ := side d y hd hy
    rcases both c hc with rfl | rfl
    · exact hc2
    · exact le_trans hle hc2
  · rw [if_neg hn]
    by_cases hf : nearest ((far : ℚ) * 10 ^ unit q p) = b
    · rw [if_pos hf]
      refine ⟨fun _ _ _ _ h => by simp at h, ?_⟩
      rintro dx hdx
      obtain rfl : strip 20 (far, unit q p) = dx := by simpa using hdx
      refine ⟨small far (.inr rfl), fun d y hd hy => ?_⟩
      rw [hval]
      obtain ⟨c, hc, hc1, hc2⟩ := side d y hd hy
      rcases both c hc with rfl | rfl
      · exact absurd hc1 hn
      · exact hc2
    · rw [if_neg hf]
      refine ⟨fun d y hd hy => ?_, fun dx h => by simp at h⟩
      obtain ⟨c, hc, hc1, _⟩ := side d y hd hy
      rcases both c hc with rfl | rfl
      · exact absurd hc1 hn
      · exact absurd hc1 hf

/-! ## Seventeen digits are enough -/

/-- Two doubles differ by at least the 2^53rd part. -/
theorem gap (f g : PyFloat) (hne : g.mag ≠ f.mag) : f.mag / 2 ^ 53 ≤ |f.mag - g.mag| := by
  rw [mag_eq, mag_eq] at *
  have hm : (f.mant : ℚ) < 2 ^ 53 := by exact_mod_cast mant_lt f
  have hk := two_pow_pos f.pow
  by_cases hp : f.pow ≤ g.pow
  · obtain ⟨n, hn⟩ := Int.eq_ofNat_of_zero_le (show 0 ≤ g.pow - f.pow by omega)
    have e : (g.mant : ℚ) * 2 ^ g.pow = ((g.mant * 2 ^ n : Nat) : ℚ) * 2 ^ f.pow := by
      rw [show g.pow = (n : Int) + f.pow by omega, two_pow_add, zpow_natCast]; push_cast; ring
    rw [e] at hne ⊢
    have hne' : g.mant * 2 ^ n ≠ f.mant := by rintro h; rw [h] at hne; exact hne rfl
    have h1 : (1 : ℚ) ≤ |(f.mant : ℚ) - (g.mant * 2 ^ n : Nat)| := by
      have : (1 : Int) ≤ |(f.mant : Int) - (g.mant * 2 ^ n : Nat)| := by rw [Int.abs_eq_natAbs]; omega
      exact_mod_cast this
    rw [← sub_mul, abs_mul, abs_of_pos hk, mul_div_right_comm]
    refine mul_le_mul_of_nonneg_right (le_trans ?_ h1) hk.le
    rw [div_le_one (by norm_num)]; exact hm.le
  · have h52 : 2 ^ 52 ≤ f.mant := by
      have := pow_ge g
      unfold pow at hp
      unfold mant
      split
      · rename_i h; rw [if_pos h] at hp; unfold pow at this; omega
      · omega
    have hg : (g.mant : ℚ) ≤ 2 ^ 53 - 1 := by
      have : g.mant + 1 ≤ 2 ^ 53 := mant_lt g
      have : ((g.mant + 1 : Nat) : ℚ) ≤ (2 ^ 53 : Nat) := by exact_mod_cast this
      push_cast at this; linarith
    have h52' : (2 : ℚ) ^ 52 ≤ f.mant := by exact_mod_cast h52
    have hle : (g.mant : ℚ) * 2 ^ g.pow ≤ (2 ^ 53 - 1) * (2 ^ f.pow / 2) := by
      have : (2 : ℚ) ^ g.pow ≤ 2 ^ f.pow / 2 := by
        have : (2 : ℚ) ^ f.pow / 2 = 2 ^ (f.pow - 1) := by rw [sub_eq_add_neg, two_pow_add, zpow_neg_one]; ring
        rw [this]; exact two_pow_le.2 (by omega)
      exact mul_le_mul hg this (two_pow_pos _).le (by norm_num)
    generalize (2 : ℚ) ^ f.pow = u at *
    generalize (g.mant : ℚ) * 2 ^ g.pow = v at *
    generalize (f.mant : ℚ) = m at *
    refine le_trans ?_ (le_abs_self _)
    have : (2 : ℚ) ^ 52 * u ≤ m * u := mul_le_mul_of_nonneg_right h52' hk.le
    rw [div_le_iff₀ (by norm_num)]
    linarith

theorem ofMag_magBits' (neg : Bool) {b : Nat} (h : b < 2 ^ 63) : (ofMag neg b).magBits = b := by
  rw [magBits_eq, ofMag_expo neg h, ofMag_frac neg h]; omega

theorem mag_le (f : PyFloat) (hf : IsFinite f) : f.mag ≤ (2 ^ 53 - 1) * 2 ^ (971 : Int) := by
  rw [mag_eq]
  have h1 : (f.mant : ℚ) ≤ 2 ^ 53 - 1 := by
    have : f.mant + 1 ≤ 2 ^ 53 := mant_lt f
    have : ((f.mant + 1 : Nat) : ℚ) ≤ (2 ^ 53 : Nat) := by exact_mod_cast this
    push_cast at this; linarith
  have h2 : f.pow ≤ 971 := by
    have := expo_lt f
    rw [finite_iff] at hf
    unfold pow; split <;> omega
  exact mul_le_mul h1 (two_pow_le.2 h2) (two_pow_pos _).le (by norm_num)

/-- What is nearer than that reads as the double. -/
theorem nearest_near (f : PyFloat) (hf : IsFinite f) {q : ℚ} (h0 : 0 < f.mag) (h : |q - f.mag| * 2 ^ 54 < f.mag) : nearest q = f.magBits := by
  have hd := abs_le.1 (show |q - f.mag| ≤ f.mag / 2 ^ 54 by rw [le_div_iff₀ (by norm_num)]; exact h.le)
  have hq : 0 ≤ q := by
    have : f.mag / 2 ^ 54 ≤ f.mag := div_le_self h0.le (by norm_num)
    linarith
  have hlt : q < 2 ^ 1024 - 2 ^ 970 := by
    have h1 := mag_le f hf
    have h2 : q ≤ f.mag * (1 + 1 / 2 ^ 54) := by rw [mul_add, mul_one, mul_one_div]; linarith
    refine lt_of_le_of_lt (le_trans h2 (mul_le_mul_of_nonneg_right h1 (by norm_num))) ?_
    norm_num
  have hn := nearest_nearest f.sign hq hlt
  have hb := nearest_lt hq hlt
  have hN : Nearest (if f.sign then -q else q) f := by
    have key : ∀ g, real g = real f ∨ |(if f.sign then -q else q) - real f| < |(if f.sign then -q else q) - real g| := by
      intro g
      have e1 : |(if f.sign then -q else q) - real f| = |q - f.mag| := by
        rw [real_eq]
        cases f.sign
        · simp
        · simp only [if_true]
          rw [← abs_neg]; congr 1; ring
      rw [e1]
      have e2 : f.sign = g.sign → |(if f.sign then -q else q) - real g| = |q - g.mag| := by
        intro hs
        rw [real_eq, hs]
        cases g.sign
        · simp
        · simp only [if_true]
          rw [← abs_neg]; congr 1; ring
      have e3 : f.sign ≠ g.sign → |(if f.sign then -q else q) - real g| = q + g.mag := by
        intro hs
        have hg := mag_nonneg g
        rw [real_eq]
        cases hf : f.sign <;> cases hg' : g.sign <;> rw [hf, hg'] at hs <;> simp at hs
        · simp only [if_true, Bool.false_eq_true, if_false]
          rw [abs_of_nonneg (by linarith)]; ring
        · simp only [if_true, Bool.false_eq_true, if_false]
          rw [abs_of_nonpos (by linarith)]; ring
      by_cases hs : f.sign = g.sign
      · by_cases hm : g.mag = f.mag
        · left; rw [real_eq, real_eq, hs, hm]
        · right
          rw [e2 hs]
          have h1 := gap f g hm
          have h2 := abs_sub_le f.mag q g.mag
          rw [abs_sub_comm f.mag q] at h2
          rw [div_le_iff₀ (by norm_num)] at h1
          have h3 : (0 : ℚ) < 2 ^ 53 := by norm_num
          by_contra hc
          have hc := not_lt.1 hc
          have : |f.mag - g.mag| ≤ 2 * |q - f.mag| := by linarith
          have : |f.mag - g.mag| * 2 ^ 53 ≤ 2 * |q - f.mag| * 2 ^ 53 := mul_le_mul_of_nonneg_right this h3.le
          linarith
      · right
        rw [e3 hs]
        have hg := mag_nonneg g
        have h4 : |q - f.mag| < f.mag / 2 ^ 54 := by rw [lt_div_iff₀ (by norm_num)]; exact h
        have h5 : f.mag / 2 ^ 54 ≤ f.mag / 2 := div_le_div_of_nonneg_left h0.le (by norm_num) (by norm_num)
        linarith
    refine ⟨hf, fun g _ => ?_⟩
    rcases key g with e | hl
    · rw [e]; exact ⟨le_refl _, fun _ => .inl rfl⟩
    · exact ⟨hl.le, fun e => absurd e hl.ne'⟩
  have := nearest_unique hn hN (ofMag_sign _ (by omega))
  rw [← this, ofMag_magBits' _ (by omega)]

theorem seventeen (f : PyFloat) (hf : IsFinite f) (h0 : 0 < f.mag) : candidates f.mag f.magBits 17 ≠ [] := by
  obtain ⟨lo, near, far, hnf, h1, h2, hle, e⟩ := candidates_eq h0 f.magBits 17
  have hu := ten_pow_pos (unit f.mag 17)
  have hl : (10 : ℚ) ^ unit f.mag 17 * 10 ^ 16 ≤ f.mag := by
    refine le_trans (le_of_eq ?_) (log10_spec h0).1
    rw [← zpow_natCast, ← ten_pow_add]; congr 1; unfold unit; push_cast; ring
  have hsum : |f.mag - near * 10 ^ unit f.mag 17| + |f.mag - far * 10 ^ unit f.mag 17| = 10 ^ unit f.mag 17 := by
    rcases hnf with ⟨rfl, rfl⟩ | ⟨rfl, rfl⟩
    · push_cast; rw [abs_of_nonneg (by linarith), abs_of_nonpos (by linarith)]; ring
    · push_cast; rw [abs_of_nonpos (by linarith), abs_of_nonneg (by linarith)]; ring
  have hn : nearest ((near : ℚ) * 10 ^ unit f.mag 17) = f.magBits := by
    apply nearest_near f hf h0
    rw [abs_sub_comm]
    have : |f.mag - near * 10 ^ unit f.mag 17| ≤ 10 ^ unit f.mag 17 / 2 := by linarith
    calc _ ≤ (10 : ℚ) ^ unit f.mag 17 / 2 * 2 ^ 54 := mul_le_mul_of_nonneg_right this (by norm_num)
      _ < 10 ^ unit f.mag 17 * 10 ^ 16 := by
          rw [div_mul_eq_mul_div, mul_div_assoc]
          exact mul_lt_mul_of_pos_left (by norm_num) hu
      _ ≤ f.mag := hl
  rw [e]
  simp only [List.map_cons, List.filter_cons, scale_strip, hn, decide_true, if_true]
  simp

/-! ## The shortest -/

/-- The digits `repr` writes: the least number of digits, and with that many the nearest -/
theorem shortest_best (f : PyFloat) (hf : IsFinite f) (h0 : f.mant ≠ 0) : ∃ p, 0 < p ∧ p ≤ 17 ∧ f.shortest.1 < 10 ^ p ∧
    (∀ (d : Nat) (y : Int) (p' : Nat), d < 10 ^ p' → nearest ((d : ℚ) * 10 ^ y) = f.magBits → p ≤ p') ∧
    ∀ (d : Nat) (y : Int), d < 10 ^ p → nearest ((d : ℚ) * 10 ^ y) = f.magBits →
      |f.mag - f.shortest.1 * 10 ^ f.shortest.2| ≤ |f.mag - d * 10 ^ y| := by
  have hm : 0 < f.mag := by
    rw [mag_eq]; exact mul_pos (by positivity) (two_pow_pos _)
  have hb := nearest_mag f hf
  have hb0 : f.magBits ≠ 0 := by
    intro e
    rw [magBits_eq] at e
    unfold mant at h0
    split at h0 <;> omega
  have hs : ∀ n, (∃ i, i < n ∧ candidates f.mag f.magBits (i + 1) ≠ []) → ∃ p, p < n ∧
      ((List.range n).flatMap fun p => candidates f.mag f.magBits (p + 1)).head? = (candidates f.mag f.magBits (p + 1)).head? ∧
      candidates f.mag f.magBits (p + 1) ≠ [] ∧ ∀ i, i < p → candidates f.mag f.magBits (i + 1) = [] := by
    intro n
    induction n with
    | zero => rintro ⟨i, h, _⟩; omega
    | succ n ih =>
      rintro ⟨i, hi, hne⟩
      rw [List.range_succ, List.flatMap_append]
      by_cases hc : ∃ i, i < n ∧ candidates f.mag f.magBits (i + 1) ≠ []
      · obtain ⟨p, h1, h2, h3, h4⟩ := ih hc
        refine ⟨p, by omega, ?_, h3, h4⟩
        rw [List.head?_append, h2]
        cases hh : (candidates f.mag f.magBits (p + 1)).head? with
        | none => exact absurd (List.head?_eq_none_iff.1 hh) h3
        | some a => rfl
      · have hnil : ∀ j, j < n → candidates f.mag f.magBits (j + 1) = [] := by
          intro j hj
          by_contra h
          exact hc ⟨j, hj, h⟩
        obtain rfl : i = n := by
          by_contra h
          exact hne (hnil i (by omega))
        refine ⟨i, by omega, ?_, hne, hnil⟩
        have : ((List.range i).flatMap fun p => candidates f.mag f.magBits (p + 1)) = [] := by
          rw [List.flatMap_eq_nil_iff]
          intro j hj; exact hnil j (by simpa using hj)
        rw [this]; simp
  obtain ⟨p, hp, e, hne, hmin⟩ := hs 17 ⟨16, by omega, seventeen f hf hm⟩
  obtain ⟨dx, hdx⟩ : ∃ dx, (candidates f.mag f.magBits (p + 1)).head? = some dx := by
    cases hh : (candidates f.mag f.magBits (p + 1)).head? with
    | none => exact absurd (List.head?_eq_none_iff.1 hh) hne
    | some a => exact ⟨a, rfl⟩
  have hsh : f.shortest = dx := by
    rw [shortest, if_neg h0, e, hdx]
  obtain ⟨b1, b2⟩ := (candidates_best hm hb (by omega : 0 < p + 1)).2 dx hdx
  rw [hsh]
  refine ⟨p + 1, by omega, by omega, b1, ?_, b2⟩
  intro d y p' hd hy
  by_contra hc
  have hp' : p' ≠ 0 := by
    rintro rfl
    have : d = 0 := by simpa using hd
    rw [this, Nat.cast_zero, zero_mul, nearest_zero] at hy
    exact hb0 hy.symm
  obtain ⟨j, rfl⟩ : ∃ j, p' = j + 1 := ⟨p' - 1, by omega⟩
  exact (candidates_best hm hb (by omega : 0 < j + 1)).1 d y hd hy (hmin j (by omega))

/-! ## The text -/

theorem decimal_short {n k : Nat} (hk : 0 < k) (h : n < 10 ^ k) : (decimal n).length ≤ k := by
  by_cases h0 : n = 0
  · subst h0; show 1 ≤ k; omega
  · obtain ⟨h1, h2, _⟩ := decimal_length n h0
    have := (Nat.pow_lt_pow_iff_right (by norm_num : 1 < 10)).1 (lt_of_le_of_lt h2 h)
    omega

theorem layout_length (ds : List Char) (h0 : 0 < ds.length) (h : ds.length ≤ 17) (p : Int) (hp : -1000 < p - 1 ∧ p - 1 < 1000) :
    (layout ds p).length ≤ 23 := by
  unfold layout
  split
  · rename_i h1
    split
    · simp; omega
    · split
      · simp; omega
      · simp; omega
  · have he : (if (p - 1).natAbs < 10 then '0' :: decimal (p - 1).natAbs else decimal (p - 1).natAbs).length ≤ 3 := by
      split
      · rename_i h
        have := decimal_short (k := 1) (by norm_num) (show (p - 1).natAbs < 10 ^ 1 by omega)
        simp; omega
      · exact decimal_short (by norm_num) (by omega)
    have hm : (if ds.length ≤ 1 then [] else '.' :: ds.drop 1).length ≤ 17 := by
      split <;> simp; omega
    simp only [List.length_append, List.length_cons, List.length_take] at *
    omega

theorem nearest_tiny : nearest ((1 : ℚ) / 10 ^ 324) = 0 := by decide +kernel
theorem nearest_huge : nearest ((10 : ℚ) ^ 309) = 2047 * 2 ^ 52 := by decide +kernel

theorem finiteText_length (f : PyFloat) (hf : IsFinite f) : f.finiteText.length ≤ 24 := by
  have key : (layout (decimal f.shortest.1) ((decimal f.shortest.1).length + f.shortest.2)).length ≤ 23 := by
    by_cases h0 : f.mant = 0
    · have : f.shortest = (0, 0) := by rw [shortest, if_pos h0]
      rw [this]; decide
    · obtain ⟨p, hp0, hp, hd, hmin, _⟩ := shortest_best f hf h0
      have hr := nearest_shortest f hf
      rw [scale_eq (by norm_num)] at hr
      have hb0 : f.magBits ≠ 0 := by
        intro e
        rw [magBits_eq] at e
        unfold mant at h0
        split at h0 <;> omega
      have hbi : f.magBits < 2047 * 2 ^ 52 := by
        have := expo_lt f; have := frac_lt f; rw [magBits_eq]; rw [finite_iff] at hf; omega
      generalize f.shortest.1 = d at *
      generalize f.shortest.2 = x at *
      have hd0 : d ≠ 0 := by
        rintro rfl
        rw [Nat.cast_zero, zero_mul, nearest_zero] at hr
        exact hb0 hr.symm
      obtain ⟨l1, l2, l3⟩ := decimal_length d hd0
      have hlen := decimal_short hp0 hd
      have hv0 : (0 : ℚ) ≤ (d : ℚ) * 10 ^ x := mul_nonneg (by positivity) (ten_pow_pos x).le
      generalize hl : (decimal d).length = l at *
      refine layout_length _ (by omega) (by omega) _ ?_
      push_cast at hr
      constructor
      · -- not too small
        by_contra hc
        have : (d : ℚ) * 10 ^ x ≤ 1 / 10 ^ 324 := by
          calc (d : ℚ) * 10 ^ x ≤ 10 ^ l * 10 ^ x := mul_le_mul_of_nonneg_right (by exact_mod_cast l3.le) (ten_pow_pos x).le
            _ = 10 ^ ((l : Int) + x) := by rw [ten_pow_add, zpow_natCast]
            _ ≤ 10 ^ (-324 : Int) := ten_pow_le.2 (by omega)
            _ = 1 / 10 ^ 324 := by rw [zpow_neg, one_div]; norm_cast
        have := nearest_mono hv0 this
        rw [nearest_tiny, hr] at this
        omega
      · by_contra hc
        have : (10 : ℚ) ^ 309 ≤ (d : ℚ) * 10 ^ x := by
          calc (10 : ℚ) ^ 309 = 10 ^ (309 : Int) := by norm_cast
            _ ≤ 10 ^ (((l - 1 : Nat) : Int) + x) := ten_pow_le.2 (by omega)
            _ = 10 ^ (l - 1) * 10 ^ x := by rw [ten_pow_add, zpow_natCast]
            _ ≤ d * 10 ^ x := mul_le_mul_of_nonneg_right (by exact_mod_cast l2) (ten_pow_pos x).le
        have := nearest_mono (by norm_num) this
        rw [nearest_huge, hr] at this
        omega
  unfold finiteText
  simp only [List.length_append]
  split <;> simp only [List.length_singleton, List.length_nil] <;> omega

end Wamp.PyFloat
