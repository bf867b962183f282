import Verif.Model.Messages

/-! Helper lemmas about validators, `validate_message` and `parse`. -/

namespace Wamp

@[simp] theorem asInt?_eq_some {v : Value} {n : PyInt} : v.asInt? = some n ↔ v = n.toValue := by
  cases v <;> cases n <;> simp [Value.asInt?, PyInt.toValue]
@[simp] theorem asInt?_toValue (n : PyInt) : n.toValue.asInt? = some n := by
  cases n <;> rfl
@[simp] theorem asStr?_eq_some {v : Value} {s : String} : v.asStr? = some s ↔ v = .str s := by
  cases v <;> simp [Value.asStr?]
@[simp] theorem asList?_eq_some {v : Value} {s : List Value} : v.asList? = some s ↔ v = .list s := by
  cases v <;> simp [Value.asList?]
@[simp] theorem asDict?_eq_some {v : Value} {s : PyDict} : v.asDict? = some s ↔ v = .dict s := by
  cases v <;> simp [Value.asDict?]
theorem toValue_inj {m n : PyInt} : m.toValue = n.toValue ↔ m = n := by
  cases m <;> cases n <;> simp [PyInt.toValue]

/-- The id range. -/
def ValidId (n : PyInt) : Prop := 1 ≤ n.val ∧ n.val ≤ 2 ^ 53

instance (n : PyInt) : Decidable (ValidId n) := by unfold ValidId; infer_instance

theorem validateInt_ok {v i name n} : validateInt v i name = .ok n ↔ v = n.toValue := by
  unfold validateInt; split <;> rename_i h
  · simp at h; subst h; simp [toValue_inj]
  · simp only [reduceCtorEq, false_iff]; intro h'; rw [h'] at h; simp at h
theorem validateString_ok {v i name n} : validateString v i name = .ok n ↔ v = .str n := by
  cases v <;> simp [validateString, Value.asStr?]
theorem validateList_ok {v i name n} : validateList v i name = .ok n ↔ v = .list n := by
  cases v <;> simp [validateList, Value.asList?]
theorem validateDict_ok {v i name n} : validateDict v i name = .ok n ↔ v = .dict n := by
  cases v <;> simp [validateDict, Value.asDict?]
theorem validateId_ok {v i name n} : validateId v i name = .ok n ↔ v = n.toValue ∧ ValidId n := by
  unfold validateId
  cases h : validateInt v i name with
  | error e =>
    simp only [reduceCtorEq, false_iff]; rintro ⟨h', -⟩; rw [validateInt_ok.2 h'] at h; cases h
  | ok k =>
    simp only [validateInt_ok] at h; subst h
    unfold ValidId
    simp only [toValue_inj]
    by_cases hk : k.val < MIN_ID ∨ k.val > MAX_ID
    · rw [if_pos (by simpa using hk)]
      simp only [MIN_ID, MAX_ID] at hk
      simp only [reduceCtorEq, false_iff]; rintro ⟨rfl, h⟩; omega
    · rw [if_neg (by simpa using hk)]
      simp only [MIN_ID, MAX_ID] at hk
      simp only [Except.ok.injEq]; constructor
      · rintro rfl; exact ⟨rfl, by omega⟩
      · exact fun h => h.1

theorem index_ok {msg i v} : index msg i = .ok v ↔ msg[i]? = some v := by
  unfold index; cases msg[i]? <;> simp

theorem fieldValidator_ok {α} {check : Value → Nat → String → Except FieldError α} {store msg i f name f'} :
    fieldValidator check store msg i f name = .ok (f', []) ↔
      ∃ v a, msg[i]? = some v ∧ check v i name = .ok a ∧ f' = store f a := by
  unfold fieldValidator index
  cases msg[i]? with
  | none => simp
  | some v => 
    simp only [Option.some.injEq]
    cases h : check v i name <;> simp [eq_comm, h]

theorem runSpec_cons_ok {idx func rest msg f name f'} :
    runSpec ((idx, func) :: rest) msg f name = .ok (f', []) ↔
      ∃ f1, func msg idx f name = .ok (f1, []) ∧ runSpec rest msg f1 name = .ok (f', []) := by
  simp only [runSpec]
  cases func msg idx f name with
  | error e => simp
  | ok p =>
    obtain ⟨f1, e1⟩ := p
    simp only
    cases h : runSpec rest msg f1 name with
    | error e => simp [h]
    | ok q =>
      obtain ⟨f2, e2⟩ := q
      simp; constructor
      · rintro ⟨rfl, rfl, rfl⟩; exact ⟨f1, ⟨rfl, rfl⟩, h⟩
      · rintro ⟨x, ⟨rfl, rfl⟩, h'⟩; rw [h] at h'; simp at h'; simp [h']

@[simp] theorem runSpec_nil_ok {msg f name f'} : runSpec [] msg f name = .ok (f', []) ↔ f' = f := by
  simp [runSpec, eq_comm]

theorem sanityCheck_ok {v lo hi t name msg} : sanityCheck v lo hi t name = .ok msg ↔
    v = .list msg ∧ lo ≤ msg.length ∧ msg.length ≤ hi ∧ ∃ x, msg[0]? = some x ∧ x.eqInt t = true := by
  unfold sanityCheck
  cases v <;> simp only [Value.asList?, reduceCtorEq, false_and, Value.list.injEq]
  rename_i l
  split
  · rename_i h; simp; rintro rfl; omega
  · split
    · rename_i h; simp; rintro rfl; omega
    · unfold index
      cases h : l[0]? with
      | none => simp; rintro rfl; simp [h]
      | some x =>
        simp only
        split
        · rename_i hx; simp at hx; simp; rintro rfl; simp [h, hx]
        · rename_i hx; simp at hx; simp
          rintro rfl; exact ⟨by omega, by omega, x, h, hx⟩

theorem validateMessage_ok {v t s f} : validateMessage v t s = .ok f ↔
    ∃ msg, v = .list msg ∧ s.minLength ≤ msg.length ∧ msg.length ≤ s.maxLength ∧
      (∃ x, msg[0]? = some x ∧ x.eqInt t = true) ∧ runSpec s.spec msg {} s.message = .ok (f, []) := by
  unfold validateMessage
  cases h : sanityCheck v s.minLength s.maxLength t s.message with
  | error e =>
    simp only [reduceCtorEq, false_iff]; rintro ⟨msg, h1, h2, h3, h4, -⟩
    rw [sanityCheck_ok.2 ⟨h1, h2, h3, h4⟩] at h; cases h
  | ok msg =>
    have h' := sanityCheck_ok.1 h
    obtain ⟨rfl, h2, h3, h4⟩ := h'
    simp only [Value.list.injEq, exists_eq_left']
    simp only [h2, h3, h4, true_and]
    cases hr : runSpec s.spec msg {} s.message with
    | error e => simp
    | ok p => obtain ⟨f', es⟩ := p; cases es <;> simp

theorem validateArgs_ok {msg i f name f'} : validateArgs msg i f name = .ok (f', []) ↔
    (msg.length ≤ i ∧ f' = f) ∨ ∃ a, msg[i]? = some (.list a) ∧ f' = { f with args := some a } := by
  unfold validateArgs
  split
  · simp only [fieldValidator_ok, validateList_ok]
    constructor
    · rintro ⟨_, a, h, rfl, rfl⟩; exact .inr ⟨a, h, rfl⟩
    · rintro (⟨h, _⟩ | ⟨a, h, rfl⟩)
      · omega
      · exact ⟨_, a, h, rfl, rfl⟩
  · rename_i h; simp at h
    simp [h, eq_comm]

theorem validateKwargs_ok {msg i f name f'} : validateKwargs msg i f name = .ok (f', []) ↔
    (msg.length ≤ i ∧ f' = f) ∨ ∃ a, msg[i]? = some (.dict a) ∧ f' = { f with kwargs := some a } := by
  unfold validateKwargs
  split
  · simp only [fieldValidator_ok, validateDict_ok]
    constructor
    · rintro ⟨_, a, h, rfl, rfl⟩; exact .inr ⟨a, h, rfl⟩
    · rintro (⟨h, _⟩ | ⟨a, h, rfl⟩)
      · omega
      · exact ⟨_, a, h, rfl, rfl⟩
  · rename_i h; simp at h
    simp [h, eq_comm]

@[simp] theorem need_ok {α} {o : Option α} {a : α} : need o = .ok a ↔ o = some a := by
  cases o <;> simp [need]

@[simp] theorem except_bind_ok {ε α β} {x : Except ε α} {g : α → Except ε β} {b : β} :
    (x >>= g) = .ok b ↔ ∃ a, x = .ok a ∧ g a = .ok b := by
  cases x <;> simp [bind, Except.bind]
@[simp] theorem except_pure_ok {ε α} {a b : α} : (pure a : Except ε α) = .ok b ↔ a = b := by
  simp [pure, Except.pure]

end Wamp
