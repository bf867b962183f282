import Verif.Proofs.Shortest
import Verif.Props.Spellings

/-! # C106: a double is written with as few digits as possible -/

namespace Wamp.Spec
set_option exponentiation.threshold 2000

theorem finite_plain {x : PyFloat} (h : IsFinite x) : PlainFloat x := by
  intro hn
  rw [PyFloat.isNaN] at hn
  rw [PyFloat.finite_iff] at h
  simp [h] at hn

theorem floatText_finite {x : PyFloat} (h : IsFinite x) : Json.floatText x = x.finiteText := by
  rcases Json.float_cases x (finite_plain h) with ⟨rfl, _⟩ | ⟨rfl, _⟩ | ⟨rfl, _⟩ | ⟨_, e⟩
  · exact absurd rfl h
  · exact absurd rfl h
  · exact absurd rfl h
  · exact e

/-- What a number that is read as `x` looks like -/
theorem readAs_bits {n : Numeral} {x : PyFloat} (h : ReadAs n x) : PyFloat.nearest n.magnitude = x.magBits ∧ n.neg = x.sign := by
  have h1 := readAs_nearest n
  have e := PyFloat.readAs_unique h1 h
  have hb : PyFloat.nearest n.magnitude < 2 ^ 63 := by
    rcases lt_or_ge n.magnitude (2 ^ 1024 - 2 ^ 970) with hq | hq
    · have := PyFloat.nearest_lt (Json.magnitude_nonneg n) hq; omega
    · rw [PyFloat.nearest_ge hq]; norm_num
  exact ⟨by rw [← e, PyFloat.ofMag_magBits' _ hb], by rw [← e, PyFloat.ofMag_sign _ hb]⟩

theorem value_distance {n : Numeral} {x : PyFloat} (h : n.neg = x.sign) : |n.value - real x| = |x.mag - n.magnitude| := by
  rw [Numeral.value, PyFloat.real_eq, h]
  cases x.sign
  · simp only [Bool.false_eq_true, if_false]; rw [abs_sub_comm]; simp
  · simp only [if_true]; congr 1; ring

/-- The number that `json.dumps` writes for a double is read as that double, no number with fewer digits is, and no other with as many
digits is nearer to the double.  It has at most 17 digits, and its text at most 24 characters. -/
theorem C106_shortest (x : PyFloat) (h : IsFinite x) : ∃ (n : Numeral) (p : Nat),
    Json.dumps (.float x) = .ok (String.ofList n.text) ∧ ReadAs n x ∧ HasDigits n.magnitude p ∧ p ≤ 17 ∧ n.text.length ≤ 24 ∧
    ∀ (n' : Numeral) (p' : Nat), ReadAs n' x → HasDigits n'.magnitude p' →
      p ≤ p' ∧ (p' = p → |n.value - real x| ≤ |n'.value - real x|) := by
  obtain ⟨n, h1, h2, h3, h4⟩ := Json.layout_conforms x.sign x.shortest.1 x.shortest.2 (Json.shortest_zero x h)
  have ht : n.text = x.finiteText := h4
  have hd : Json.dumps (.float x) = .ok (String.ofList n.text) := by
    rw [Json.dumps_fits (.float x) (finite_plain h), Json.text, floatText_finite h, ht]
  have hr : ReadAs n x := by
    have hr : Json.Stop ([] : List Char) := by intro c hc; cases hc
    have h5 := (Json.number_finite x h [] hr).1
    have h6 := (Json.number_numeral n h1 hr).1
    rw [ht, h5] at h6
    have h7 : x = _ := Value.float.inj (Prod.mk.inj (Except.ok.inj h6)).1
    have := readAs_nearest n
    rwa [← h7] at this
  have hl : n.text.length ≤ 24 := by rw [ht]; exact PyFloat.finiteText_length x h
  by_cases h0 : x.mant = 0
  · have hs : x.shortest = (0, 0) := by rw [PyFloat.shortest, if_pos h0]
    rw [hs] at h3
    have hm : n.magnitude = 0 := by rw [h3]; simp
    refine ⟨n, 0, hd, hr, ⟨0, 0, by norm_num, by rw [hm]; simp⟩, by norm_num, hl, fun n' p' _ _ => ⟨Nat.zero_le _, fun _ => ?_⟩⟩
    rw [value_distance h2, hm, PyFloat.mag_eq, h0]
    simp
  · obtain ⟨p, hp0, hp, hlt, hmin, hbest⟩ := PyFloat.shortest_best x h h0
    refine ⟨n, p, hd, hr, ⟨_, _, hlt, h3⟩, hp, hl, ?_⟩
    rintro n' p' hr' ⟨d, y, hd', e'⟩
    obtain ⟨hb, hs⟩ := readAs_bits hr'
    rw [e'] at hb
    refine ⟨hmin d y p' hd' hb, ?_⟩
    rintro rfl
    rw [value_distance h2, value_distance hs, h3, e']
    exact hbest d y hd' hb

/-- The same number is the argument in a call. -/
theorem C106_argument (x : PyFloat) (h : IsFinite x) (n : Numeral) (hd : Json.dumps (.float x) = .ok (String.ofList n.text)) :
    Json.codec.serialize (.call { requestId := 1, procedure := "p", args := some [.float x] }) =
      .ok (String.ofList ("[48, 1, {}, \"p\", [".toList ++ n.text ++ "]]".toList)) := by
  have ht : Json.floatText x = n.text := by
    rw [Json.dumps_fits (.float x) (finite_plain h), Json.text] at hd
    exact String.ofList_injective (Except.ok.inj hd)
  show Json.dumps (.list [.int 48, .int 1, .dict [], .str "p", .list [.float x]]) = _
  have hp := finite_plain h
  rw [Json.dumps_fits]
  · simp only [Json.text, Json.textTail, ht]
    have h1 : Json.integer 48 = ['4', '8'] := by decide +kernel
    have h2 : Json.integer 1 = ['1'] := by decide +kernel
    have h3 : Json.quote "p".toList = ['"', 'p', '"'] := by decide +kernel
    have h4 : "[48, 1, {}, \"p\", [".toList = ['[', '4', '8', ',', ' ', '1', ',', ' ', '{', '}', ',', ' ', '"', 'p', '"', ',', ' ', '['] := by decide +kernel
    have h5 : "]]".toList = [']', ']'] := by decide +kernel
    rw [h1, h2, h3, h4, h5]
    simp
  · simp [Fits, FitsList, FitsDict, jsonLimits, hp]

/-- 0.1 has 55 digits, but one is enough; the least double and the largest; one that needs 17 digits and 24 characters -/
example : Json.dumps (.float ⟨0x3fb999999999999a#64⟩) = .ok "0.1" ∧ Json.dumps (.float ⟨1#64⟩) = .ok "5e-324" ∧
    Json.dumps (.float ⟨0x8010000000000000#64⟩) = .ok "-2.2250738585072014e-308" ∧ "-2.2250738585072014e-308".length = 24 ∧
    IsFinite ⟨0x3fb999999999999a#64⟩ ∧ IsFinite ⟨1#64⟩ ∧ IsFinite ⟨0x8010000000000000#64⟩ := by
  refine ⟨by decide +kernel, by decide +kernel, by decide +kernel, by decide +kernel, ?_, ?_, ?_⟩ <;> unfold IsFinite <;> decide

end Wamp.Spec
