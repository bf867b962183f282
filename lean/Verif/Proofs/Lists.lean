/-! # Lists grown at the end -/

namespace Wamp

/-- Induction on histories, last call last. -/
theorem snoc_induction {α} {P : List α → Prop} (nil : P []) (snoc : ∀ ops op, P ops → P (ops ++ [op])) : ∀ ops, P ops := by
  intro ops
  have : ∀ n, ∀ ops : List α, ops.length = n → P ops := by
    intro n
    induction n with
    | zero => intro ops h; rw [List.length_eq_zero_iff.1 h]; exact nil
    | succ n ih =>
      intro ops h
      rcases List.eq_nil_or_concat ops with rfl | ⟨ops', y, rfl⟩
      · cases h
      · simp at h; simpa using snoc ops' y (ih ops' h)
  exact this _ ops rfl

/-- Splitting a trace extended by one call. -/
theorem split_snoc {α} {l : List α} {a : α} {P : α → Prop} {Q : α → Prop} :
    (∃ pre e post, l ++ [a] = pre ++ e :: post ∧ P e ∧ ∀ e' ∈ post, Q e') ↔
      P a ∨ ((∃ pre e post, l = pre ++ e :: post ∧ P e ∧ ∀ e' ∈ post, Q e') ∧ Q a) := by
  constructor
  · rintro ⟨pre, e, post, h, hp, hq⟩
    rcases List.eq_nil_or_concat post with rfl | ⟨post', x, rfl⟩
    · have h' := List.append_inj' h rfl
      injection h'.2 with h2; subst h2; exact .inl hp
    · have : l ++ [a] = (pre ++ e :: post') ++ [x] := by simp [h]
      have h' := List.append_inj' this rfl
      injection h'.2 with h2; subst h2
      exact .inr ⟨⟨pre, e, post', h'.1, hp, fun e' he' => hq e' (by simp [he'])⟩, hq _ (by simp)⟩
  · rintro (h | ⟨⟨pre, e, post, rfl, hp, hq⟩, ha⟩)
    · exact ⟨l, a, [], rfl, h, by simp⟩
    · refine ⟨pre, e, post ++ [a], by simp, hp, ?_⟩
      intro e' he'
      rw [List.mem_append, List.mem_singleton] at he'
      rcases he' with he' | rfl
      · exact hq _ he'
      · exact ha

/-- The same with a condition that also looks at what came before. -/
theorem split_snoc_pre {α} {l : List α} {a : α} {P : List α → α → Prop} {Q : α → Prop} :
    (∃ pre e post, l ++ [a] = pre ++ e :: post ∧ P pre e ∧ ∀ e' ∈ post, Q e') ↔
      P l a ∨ ((∃ pre e post, l = pre ++ e :: post ∧ P pre e ∧ ∀ e' ∈ post, Q e') ∧ Q a) := by
  constructor
  · rintro ⟨pre, e, post, h, hp, hq⟩
    rcases List.eq_nil_or_concat post with rfl | ⟨post', x, rfl⟩
    · have h' := List.append_inj' h rfl
      injection h'.2 with h2; obtain rfl := h'.1; subst h2; exact .inl hp
    · have : l ++ [a] = (pre ++ e :: post') ++ [x] := by simp [h]
      have h' := List.append_inj' this rfl
      injection h'.2 with h2; subst h2
      exact .inr ⟨⟨pre, e, post', h'.1, hp, fun e' he' => hq e' (by simp [he'])⟩, hq _ (by simp)⟩
  · rintro (h | ⟨⟨pre, e, post, rfl, hp, hq⟩, ha⟩)
    · exact ⟨l, a, [], rfl, h, by simp⟩
    · refine ⟨pre, e, post ++ [a], by simp, hp, ?_⟩
      intro e' he'
      rw [List.mem_append, List.mem_singleton] at he'
      rcases he' with he' | rfl
      · exact hq _ he'
      · exact ha

/-- The same where the condition on later entries looks at everything before them. -/
theorem split_snoc_hist {α} {l : List α} {a : α} {P : α → Prop} {Q : List α → α → Prop} :
    (∃ pre e post, l ++ [a] = pre ++ e :: post ∧ P e ∧
        ∀ mid e' rest, post = mid ++ e' :: rest → Q (pre ++ e :: mid) e') ↔
      P a ∨ ((∃ pre e post, l = pre ++ e :: post ∧ P e ∧
        ∀ mid e' rest, post = mid ++ e' :: rest → Q (pre ++ e :: mid) e') ∧ Q l a) := by
  constructor
  · rintro ⟨pre, e, post, h, hp, hq⟩
    rcases List.eq_nil_or_concat post with rfl | ⟨post', x, rfl⟩
    · have h' := List.append_inj' h rfl
      injection h'.2 with h2; subst h2; exact .inl hp
    · have : l ++ [a] = (pre ++ e :: post') ++ [x] := by simp [h]
      have h' := List.append_inj' this rfl
      injection h'.2 with h2; subst h2
      refine .inr ⟨⟨pre, e, post', h'.1, hp, fun mid e' rest hm => hq mid e' (rest ++ [a]) (by simp [hm])⟩, ?_⟩
      rw [h'.1]
      exact hq post' a [] (by simp)
  · rintro (h | ⟨⟨pre, e, post, rfl, hp, hq⟩, ha⟩)
    · exact ⟨l, a, [], rfl, h, fun mid e' rest hm => by simp at hm⟩
    · refine ⟨pre, e, post ++ [a], by simp, hp, ?_⟩
      intro mid e' rest hm
      rcases List.eq_nil_or_concat rest with rfl | ⟨rest', x, rfl⟩
      · have h' := List.append_inj' hm rfl
        injection h'.2 with h2; subst h2; rw [← h'.1]; exact ha
      · have : post ++ [a] = (mid ++ e' :: rest') ++ [x] := by simp [hm]
        have h' := List.append_inj' this rfl
        exact hq mid e' rest' h'.1

/-- The same where both conditions look at everything before. -/
theorem split_snoc_hist_pre {α} {l : List α} {a : α} {P : List α → α → Prop} {Q : List α → α → Prop} :
    (∃ pre e post, l ++ [a] = pre ++ e :: post ∧ P pre e ∧
        ∀ mid e' rest, post = mid ++ e' :: rest → Q (pre ++ e :: mid) e') ↔
      P l a ∨ ((∃ pre e post, l = pre ++ e :: post ∧ P pre e ∧
        ∀ mid e' rest, post = mid ++ e' :: rest → Q (pre ++ e :: mid) e') ∧ Q l a) := by
  constructor
  · rintro ⟨pre, e, post, h, hp, hq⟩
    rcases List.eq_nil_or_concat post with rfl | ⟨post', x, rfl⟩
    · have h' := List.append_inj' h rfl
      injection h'.2 with h2; obtain rfl := h'.1; subst h2; exact .inl hp
    · have : l ++ [a] = (pre ++ e :: post') ++ [x] := by simp [h]
      have h' := List.append_inj' this rfl
      injection h'.2 with h2; subst h2
      refine .inr ⟨⟨pre, e, post', h'.1, hp, fun mid e' rest hm => hq mid e' (rest ++ [a]) (by simp [hm])⟩, ?_⟩
      rw [h'.1]
      exact hq post' a [] (by simp)
  · rintro (h | ⟨⟨pre, e, post, rfl, hp, hq⟩, ha⟩)
    · exact ⟨l, a, [], rfl, h, fun mid e' rest hm => by simp at hm⟩
    · refine ⟨pre, e, post ++ [a], by simp, hp, ?_⟩
      intro mid e' rest hm
      rcases List.eq_nil_or_concat rest with rfl | ⟨rest', x, rfl⟩
      · have h' := List.append_inj' hm rfl
        injection h'.2 with h2; subst h2; rw [← h'.1]; exact ha
      · have : post ++ [a] = (mid ++ e' :: rest') ++ [x] := by simp [hm]
        have h' := List.append_inj' this rfl
        exact hq mid e' rest' h'.1

end Wamp
