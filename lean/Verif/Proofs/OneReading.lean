import Verif.Proofs.Numbers
import Verif.Spec.Spellings

/-! # A number is read in one way -/

namespace Wamp.PyFloat
open Spec
set_option exponentiation.threshold 2000

theorem mag_unique {x y : PyFloat} (hx : IsFinite x) (hy : IsFinite y) (h : x.mag = y.mag) (hs : x.sign = y.sign) : x = y := by
  rw [← ofMag_magBits x, ← ofMag_magBits y, ← nearest_mag x hx, ← nearest_mag y hy, h, hs]

/-- Doubles of the same value and sign are the same. -/
theorem real_unique {x y : PyFloat} (hx : IsFinite x) (hy : IsFinite y) (h : real x = real y) (hs : x.sign = y.sign) : x = y := by
  apply mag_unique hx hy _ hs
  rw [real_eq, real_eq, hs] at h
  split at h <;> simpa using h

/-- The next double is larger. -/
theorem mag_succ (x : PyFloat) (h : x.magBits + 1 < 2047 * 2 ^ 52) : (ofMag x.sign (x.magBits + 1)).mag = (x.mant + 1 : Nat) * 2 ^ x.pow := by
  have e : x.magBits = (x.pow + 1074).toNat * 2 ^ 52 + x.mant := by
    have := frac_lt x
    rw [magBits_eq, mant, pow]
    split
    · rename_i h0; rw [h0]; simp
    · have : (x.expo : Int) - 1075 + 1074 = ((x.expo - 1 : Nat) : Int) := by omega
      rw [this, Int.toNat_natCast]; omega
  have hn : x.mant + 1 ≤ 2 ^ 53 := mant_lt x
  have := mag_form x.sign (k := x.pow) (n := x.mant + 1) (pow_ge x) hn ?_ (by omega)
  · rw [← this]; congr 2; omega
  · unfold mant pow; split
    · right; rfl
    · left; omega

/-- Of two doubles of one sign, the one with the larger bits is farther from zero. -/
theorem mag_lt {x y : PyFloat} (hs : x.sign = y.sign) (hy : IsFinite y) : x.magBits < y.magBits → x.mag < y.mag := by
  intro h
  obtain ⟨n, hn⟩ : ∃ n, y.magBits = x.magBits + 1 + n := ⟨y.magBits - x.magBits - 1, by omega⟩
  have hy' : y.magBits < 2047 * 2 ^ 52 := by
    have := expo_lt y; have := frac_lt y; rw [magBits_eq]; have := hy; rw [finite_iff] at this; omega
  induction n generalizing x with
  | zero =>
    have e : ofMag x.sign (x.magBits + 1) = y := by
      have : y.magBits = x.magBits + 1 := hn
      rw [hs, ← this, ofMag_magBits]
    have := mag_succ x (by omega)
    rw [e] at this
    rw [this, mag_eq]
    exact mul_lt_mul_of_pos_right (by push_cast; linarith) (two_pow_pos _)
  | succ n ih =>
    have h1 := mag_succ x (by omega)
    have h2 : x.mag < (ofMag x.sign (x.magBits + 1)).mag := by
      rw [h1, mag_eq]
      exact mul_lt_mul_of_pos_right (by push_cast; linarith) (two_pow_pos _)
    have e : (ofMag x.sign (x.magBits + 1)).magBits = x.magBits + 1 := by
      rw [magBits_eq, ofMag_expo _ (by omega), ofMag_frac _ (by omega)]; omega
    refine lt_trans h2 (ih ?_ (by omega) (by omega))
    rw [ofMag_sign _ (by omega), hs]

theorem nearer_between {v a b c : ℚ} (h1 : a < c) (h2 : c < b) (e : |v - b| = |v - a|) : |v - c| < |v - a| := by
  rcases abs_cases (v - a) with ⟨x1, x2⟩ | ⟨x1, x2⟩ <;> rcases abs_cases (v - b) with ⟨y1, y2⟩ | ⟨y1, y2⟩ <;>
    rcases abs_cases (v - c) with ⟨z1, z2⟩ | ⟨z1, z2⟩ <;> rw [x1, y1] at e <;> rw [x1, z1] <;> linarith

theorem nearest_unique'  {v : ℚ} {x y : PyFloat} (hx : Nearest v x) (hy : Nearest v y) (hs : x.sign = y.sign) (h : x.magBits < y.magBits) : False := by
  have hlt := mag_lt hs hy.1 h
  have hne : real y ≠ real x := by
    intro e; rw [real_eq, real_eq, hs] at e
    split at e <;> simp at e <;> linarith
  have htie : |v - real y| = |v - real x| := le_antisymm (hy.2 x hx.1).1 (hx.2 y hy.1).1
  have ex := ((hx.2 y hy.1).2 htie).resolve_left hne
  have ey := ((hy.2 x hx.1).2 htie.symm).resolve_left hne.symm
  rw [parity] at ex ey
  -- the double between them
  have hy' : y.magBits < 2047 * 2 ^ 52 := by
    have := expo_lt y; have := frac_lt y; rw [magBits_eq]; have := hy.1; rw [finite_iff] at this; omega
  let z := ofMag x.sign (x.magBits + 1)
  have zb : z.magBits = x.magBits + 1 := by
    rw [magBits_eq, ofMag_expo _ (by omega), ofMag_frac _ (by omega)]; omega
  have zs : z.sign = x.sign := ofMag_sign _ (by omega)
  have zf : IsFinite z := by rw [finite_iff, ofMag_expo _ (by omega)]; omega
  have h1 := mag_lt (x := x) (y := z) zs.symm zf (by omega)
  have h2 := mag_lt (x := z) (y := y) (zs.trans hs) hy.1 (by omega)
  have h3 := (hx.2 z zf).1
  have h5 : |v - real z| < |v - real x| := by
    rw [real_eq, real_eq, ← hs] at htie
    rw [real_eq, real_eq, zs]
    cases hc : x.sign <;> simp only [hc, if_true, Bool.false_eq_true, if_false] at htie ⊢
    · exact nearer_between (b := 1 * y.mag) (by linarith) (by linarith) htie
    · rw [← htie]
      exact nearer_between (b := -1 * x.mag) (by linarith) (by linarith) htie.symm
  linarith

/-- There is one nearest double of a sign. -/
theorem nearest_unique {v : ℚ} {x y : PyFloat} (hx : Nearest v x) (hy : Nearest v y) (hs : x.sign = y.sign) : x = y := by
  rcases Nat.lt_trichotomy x.magBits y.magBits with h | h | h
  · exact (nearest_unique' hx hy hs h).elim
  · rw [← ofMag_magBits x, ← ofMag_magBits y, h, hs]
  · exact (nearest_unique' hy hx hs.symm h).elim

theorem sign_msb (x : PyFloat) : x.bits.msb = x.sign := by
  rw [BitVec.msb_eq_decide, sign]
  have := x.bits.isLt
  simp only [decide_eq_decide]
  omega

/-- A number is read in one way. -/
theorem readAs_unique {n : Numeral} {x y : PyFloat} (hx : ReadAs n x) (hy : ReadAs n y) : x = y := by
  rcases lt_or_ge n.magnitude (2 ^ 1024 - 2 ^ 970) with h | h
  · obtain ⟨x1, x2⟩ := hx.1 h
    obtain ⟨y1, y2⟩ := hy.1 h
    exact nearest_unique x1 y1 (by rw [← sign_msb, ← sign_msb, x2, y2])
  · rw [hx.2 h, hy.2 h]

/-- The float of fewer bits is read as its double. -/
theorem widen_same {eb fb n : Nat} (he : (eb = 5 ∧ fb = 10) ∨ (eb = 8 ∧ fb = 23)) (hn : n < 2 ^ (1 + eb + fb)) {x : PyFloat} (h : SameFloat eb fb n x) :
    widen eb fb n = some x := by
  rcases h with ⟨h1, h2, h3, h4⟩ | ⟨rfl, rfl⟩ | ⟨rfl, rfl⟩ | ⟨rfl, rfl⟩
  · obtain ⟨r, a1, a2, a3, a4⟩ := widen_real (eb := eb) (fb := fb) (n := n) (by omega)
      (by omega) (by rcases he with ⟨rfl, rfl⟩ | ⟨rfl, rfl⟩ <;> norm_num) h1
    rw [a1, real_unique a2 h2 (a3.trans h3.symm)]
    rw [a4, sign, decide_eq_decide]
    have hb := x.bits.isLt
    rcases he with ⟨rfl, rfl⟩ | ⟨rfl, rfl⟩ <;> omega
  all_goals rcases he with ⟨rfl, rfl⟩ | ⟨rfl, rfl⟩ <;> decide +kernel

end Wamp.PyFloat

namespace Wamp.Spec
set_option exponentiation.threshold 2000

/-- The double nearest to a number -/
theorem readAs_nearest (n : Numeral) : ReadAs n (PyFloat.ofMag n.neg (PyFloat.nearest n.magnitude)) := by
  have h0 := Json.magnitude_nonneg n
  refine ⟨fun h => ⟨?_, ?_⟩, fun h => ?_⟩
  · exact PyFloat.nearest_nearest n.neg h0 h
  · have hb := PyFloat.nearest_lt h0 h
    have hs := PyFloat.ofMag_sign n.neg (b := PyFloat.nearest n.magnitude) (by omega)
    refine Eq.trans ?_ hs
    rw [BitVec.msb_eq_decide, PyFloat.sign]
    have := (PyFloat.ofMag n.neg (PyFloat.nearest n.magnitude)).bits.isLt
    simp only [decide_eq_decide]
    omega
  · rw [PyFloat.nearest_infinite n.neg h]; cases n.neg <;> rfl

end Wamp.Spec
