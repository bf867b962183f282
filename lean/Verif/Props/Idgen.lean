import Verif.Model.Idgen

/-! # Id generation properties C17, C18 -/

namespace Wamp

theorem after_id (n : Nat) : (IdGen.after n).id = if n = 0 then 0 else ((n - 1) % 2 ^ 53 : Nat) + 1 := by
  induction n with
  | zero => rfl
  | succ n ih =>
    simp only [IdGen.after, IdGen.next, ih, ID_MAX]
    by_cases h : n = 0
    · subst h; decide
    · simp only [h, if_false, Nat.add_one_ne_zero]
      split <;> omega

theorem draw_eq (n : Nat) : IdGen.draw n = (n % 2 ^ 53 : Nat) + 1 := by
  simp only [IdGen.draw, IdGen.next, after_id, ID_MAX]
  by_cases h : n = 0
  · subst h; decide
  · simp only [h, if_false]
    split <;> omega

/-- Every id drawn, after any number of draws, is in `1..2^53`; the first is 1, each next one is one more, and after
`2^53` comes 1 again. -/
theorem C17_ids_valid (n : Nat) :
    (1 ≤ IdGen.draw n ∧ IdGen.draw n ≤ 2 ^ 53) ∧ IdGen.draw 0 = 1 ∧
    (IdGen.draw n < 2 ^ 53 → IdGen.draw (n + 1) = IdGen.draw n + 1) ∧
    (IdGen.draw n = 2 ^ 53 → IdGen.draw (n + 1) = 1) := by
  refine ⟨?_, rfl, ?_, ?_⟩ <;> simp only [draw_eq] <;> omega

/-- Both successor cases occur. -/
example : IdGen.draw 5 < 2 ^ 53 ∧ IdGen.draw (2 ^ 53 - 1) = 2 ^ 53 := by simp only [draw_eq]; omega

/-- Draws fewer than `2^53` apart differ; draws exactly `2^53` apart agree. -/
theorem C18_ids_unique (i j : Nat) (hij : i < j) :
    (j - i < 2 ^ 53 → IdGen.draw i ≠ IdGen.draw j) ∧ (j - i = 2 ^ 53 → IdGen.draw i = IdGen.draw j) := by
  simp only [draw_eq]; omega

example : (3 : Nat) < 2 ^ 53 + 2 ∧ (2 ^ 53 + 2) - 3 < 2 ^ 53 := by omega

end Wamp
