import Verif.Model.Legacy

/-! # C69, C70 — validation helpers, text of an application error -/

namespace Wamp.Legacy

/-! ## C69 -/

/-- `x` occurs in `s`. -/
def Occurs (x s : String) : Prop := ∃ a b, s = a ++ x ++ b

theorem C69_strings (v : Value) (msg : String) :
    (∀ r, validateRealm v msg = .ok r ↔ r = v ∧ ∃ s, v = .str s) ∧
    (∀ r, validateUri v msg = .ok r ↔ r = v ∧ ∃ s, v = .str s) ∧
    (∀ r, validateProcedure v msg = .ok r ↔ r = v ∧ ∃ s, v = .str s) ∧
    (∀ e, validateRealm v msg = .error e → ∃ t, e = .realm ("realm " ++ t ++ " for " ++ msg)) ∧
    (∀ e, validateUri v msg = .error e → ∃ t, e = .uri ("uri " ++ t ++ " for " ++ msg)) ∧
    (∀ e, validateProcedure v msg = .error e → ∃ t, e = .uri ("procedure " ++ t ++ " for " ++ msg)) := by
  cases v <;> simp [validateRealm, validateUri, validateProcedure, eq_comm]
  case none => exact ⟨⟨"cannot be null", by decide⟩, ⟨"cannot be null", by decide⟩, ⟨"cannot be null", by decide⟩⟩
  all_goals exact ⟨⟨"must be of type string", by decide⟩, ⟨"must be of type string", by decide⟩, ⟨"must be of type string", by decide⟩⟩

theorem badKey_none (d : PyDict) : badKey d = none ↔ ∀ kv ∈ d, ∃ s, kv.1 = .str s := by
  induction d with
  | nil => simp [badKey]
  | cons kv rest ih =>
    obtain ⟨k, v⟩ := kv
    cases k <;> simp [badKey, Value.asStr?, ih]

theorem badKey_some (d : PyDict) (k : Value) (h : badKey d = some k) : ∃ kv ∈ d, (∀ s, kv.1 ≠ .str s) ∧ k = kv.1 := by
  induction d with
  | nil => cases h
  | cons kv rest ih =>
    obtain ⟨x, v⟩ := kv
    simp only [badKey] at h
    split at h
    · obtain ⟨kv, h1, h2⟩ := ih h
      exact ⟨kv, List.mem_cons_of_mem _ h1, h2⟩
    · rename_i hx
      injection h with h
      exact ⟨_, List.mem_cons_self, (fun s e => hx (by simp only at e; rw [e]; rfl)), h.symm⟩

/-- A dict is accepted exactly when all its keys are strings; anything else is refused with InvalidDetailsError,
whose text names the message, and the field or a key that is not a string. -/
theorem C69_details (str : Value → String) (v : Value) (msg : String) (field : Option String) :
    (∀ r, validateDetails str v msg field = .ok r ↔ r = v ∧ ∃ d, v = .dict d ∧ ∀ kv ∈ d, ∃ s, kv.1 = .str s) ∧
    (∀ e, validateDetails str v msg field = .error e → ∃ t, e = .details (t ++ " for " ++ msg) ∧
      ((∀ d, v ≠ .dict d) → t = field.getD "details" ++ " must be of type dictionary") ∧
      ∀ d, v = .dict d → ∃ kv ∈ d, (∀ s, kv.1 ≠ .str s) ∧ t = "invalid type for key '" ++ str kv.1 ++ "' in extra details") := by
  cases v with
  | dict d =>
    have hb := badKey_none d
    cases h : badKey d with
    | none =>
      have := hb.1 h
      simp only [validateDetails, h]
      refine ⟨fun r => ⟨fun e => ⟨by injection e with e; exact e.symm, d, rfl, this⟩, fun e => by rw [e.1]⟩, fun e h => by cases h⟩
    | some k =>
      have hn : ¬ ∀ kv ∈ d, ∃ s, kv.1 = .str s := fun h' => by rw [hb.2 h'] at h; cases h
      simp only [validateDetails, h]
      refine ⟨fun r => ⟨(fun e => by cases e), fun ⟨_, d', e, h'⟩ => ?_⟩, fun e h => ?_⟩
      · injection e with e; subst e; exact absurd h' hn
      · injection h with h
        obtain ⟨kv, h1, h2, h3⟩ := badKey_some d k ‹_›
        refine ⟨"invalid type for key '" ++ str kv.1 ++ "' in extra details", ?_, fun h' => absurd rfl (h' d), fun d' e => ?_⟩
        · rw [← h, h3]; simp only [String.append_assoc]; rfl
        · injection e with e; subst e; exact ⟨kv, h1, h2, rfl⟩
  | _ =>
    refine ⟨fun r => by simp [validateDetails, eq_comm], fun e h => ?_⟩
    injection h with h
    refine ⟨field.getD "details" ++ " must be of type dictionary", ?_, fun _ => rfl, fun d e => by cases e⟩
    rw [← h]; simp only [String.append_assoc]; rfl

/-- What is true of session ids: accepted exactly when an int from 0 (not 1) to 2**53. -/
theorem C69_session_id_partial (v : Value) (msg : String) (field : Option String) :
    (∀ r, validateSessionId v msg field = .ok r ↔ r = v ∧ ∃ i, v.asInt? = some i ∧ 0 ≤ i.val ∧ i.val ≤ 2 ^ 53) ∧
    (∀ e, validateSessionId v msg field = .error e → ∃ t, e = .protocol (t ++ " for " ++ msg) ∧
      ∀ i, v.asInt? = some i → t = "invalid " ++ field.getD "Session ID" ++ " value") := by
  unfold validateSessionId
  cases h : v.asInt? with
  | none =>
    refine ⟨fun r => by simp, fun e h => ?_⟩
    injection h with h
    refine ⟨"session ID must be an integer", ?_, fun i hi => by cases hi⟩
    rw [← h]; rfl
  | some i =>
    by_cases hr : i.val < 0 ∨ i.val > 9007199254740992
    · simp only [hr, if_true]
      refine ⟨fun r => ⟨(fun e => by cases e), fun ⟨_, j, e, h0, h1⟩ => ?_⟩, fun e h => ?_⟩
      rotate_left
      · injection h with h
        refine ⟨"invalid " ++ field.getD "Session ID" ++ " value", ?_, fun _ _ => rfl⟩
        rw [← h]; simp only [String.append_assoc]; rfl
      injection e with e; subst e; omega
    · simp only [hr, if_false]
      refine ⟨fun r => ⟨fun e => ⟨by injection e with e; exact e.symm, i, rfl, by omega, by omega⟩, fun e => by rw [e.1]⟩,
        fun e h => by cases h⟩

/-- The comment in the code says ids lie between 1 and 2**53; 0 is accepted all the same. -/
theorem C69_fails_zero (msg : String) : validateSessionId (.int 0) msg = .ok (.int 0) ∧
    validateSessionId (.bool false) msg = .ok (.bool false) := ⟨rfl, rfl⟩

example : validateSessionId (.int 9007199254740992) "W" = .ok (.int 9007199254740992) ∧
    validateSessionId (.int 9007199254740993) "W" = .error (.protocol "invalid Session ID value for W") ∧
    validateSessionId (.int (-1)) "W" (some "id") = .error (.protocol "invalid id value for W") ∧
    validateDetails (fun _ => "23") (.dict [(.str "a", .none), (.int 23, .str "v")]) "Ping" =
      .error (.details "invalid type for key '23' in extra details for Ping") ∧
    validateRealm .none "H" = .error (.realm "realm cannot be null for H") := ⟨by decide, by decide, by decide, rfl, rfl⟩

/-! ## C70 -/

theorem Occurs.pre {x s : String} (h : Occurs x s) (p : String) : Occurs x (p ++ s) := by
  obtain ⟨a, b, rfl⟩ := h
  exact ⟨p ++ a, b, by simp [String.append_assoc]⟩

theorem Occurs.post {x s : String} (h : Occurs x s) (p : String) : Occurs x (s ++ p) := by
  obtain ⟨a, b, rfl⟩ := h
  exact ⟨a, b ++ p, by simp [String.append_assoc]⟩

theorem occurs_join (sep : String) (l : List String) (x : String) (h : x ∈ l) : Occurs x (join sep l) := by
  fun_induction join sep l with
  | case1 => simp at h
  | case2 y => simp at h; subst h; exact ⟨"", "", by simp⟩
  | case3 y z rest ih =>
    rcases List.mem_cons.1 h with h' | h'
    · subst h'; exact ⟨"", sep ++ join sep (z :: rest), by simp [String.append_assoc]⟩
    · exact (ih h').pre _

theorem app_ne (a b c : String) (hb : b ≠ "") : a ++ b ++ c ≠ a := by
  intro h
  have h1 := congrArg String.length h
  simp only [String.length_append] at h1
  have : b.length = 0 := by omega
  exact hb (by simpa using this)

/-- The text starts with the error's message and shows every argument and every key with its value. -/
theorem C70_shows_everything (str : Value → String) (message : String) (args : Option (List Value)) (kwargs : Option PyDict) :
    (∃ rest, applicationErrorStr str message args kwargs = message ++ rest) ∧
    (∀ as, args = some as → ∀ a ∈ as, Occurs (str a) (applicationErrorStr str message args kwargs)) ∧
    (∀ ks, kwargs = some ks → ∀ kv ∈ ks, Occurs (str kv.1 ++ "=" ++ str kv.2) (applicationErrorStr str message args kwargs)) := by
  rcases args with _ | _ | ⟨a, as⟩ <;> rcases kwargs with _ | _ | ⟨k, ks⟩ <;> simp only [applicationErrorStr]
  all_goals refine ⟨⟨_, by first | exact (String.append_empty).symm | (simp only [String.append_assoc]; rfl)⟩, ?_, ?_⟩
  all_goals intro l hl x hx
  all_goals first
    | cases hl; done
    | (injection hl with hl; subst hl; simp at hx; done)
    | skip
  all_goals injection hl with hl; subst hl
  all_goals first
    | exact (occurs_join _ _ _ (List.mem_map_of_mem hx)).pre _
    | exact (((occurs_join _ _ _ (List.mem_map_of_mem hx)).pre _).post _).post _
    | exact (occurs_join _ _ _ (List.mem_map.2 ⟨x, hx, rfl⟩)).pre _

/-- The bare message is shown exactly when there is nothing else. -/
theorem C70_bare_iff (str : Value → String) (message : String) (args : Option (List Value)) (kwargs : Option PyDict) :
    applicationErrorStr str message args kwargs = message ↔ args.getD [] = [] ∧ kwargs.getD [] = [] := by
  rcases args with _ | _ | ⟨a, as⟩ <;> rcases kwargs with _ | _ | ⟨k, ks⟩ <;>
    simp only [applicationErrorStr, Option.getD, reduceCtorEq, and_false, false_and, and_self, iff_false]
  all_goals first
    | exact app_ne _ _ _ (by decide)
    | (simp only [String.append_assoc]; rw [← String.append_assoc]; exact app_ne _ _ _ (by decide))

example : applicationErrorStr (fun | .str s => s | _ => "?") "wamp.error.x" (some [.str "a", .str "b"]) (some [(.str "k", .str "v")]) =
    "wamp.error.x: a, b: k=v" := by decide

/-- `str()` of an ERROR message, likewise. -/
theorem C70_error_shows_everything (str : Value → String) (uri : String) (args : Option (List Value)) (kwargs : Option PyDict) :
    (∃ rest, errorStr str uri args kwargs = uri ++ rest) ∧
    (∀ as, args = some as → ∀ a ∈ as, Occurs (str a) (errorStr str uri args kwargs)) ∧
    (∀ ks, kwargs = some ks → ∀ kv ∈ ks, Occurs (str kv.1 ++ "=" ++ str kv.2) (errorStr str uri args kwargs)) := by
  rcases args with _ | as <;> rcases kwargs with _ | ks <;> simp only [errorStr]
  all_goals refine ⟨⟨_, by first | exact (String.append_empty).symm | (simp only [String.append_assoc]; rfl)⟩, ?_, ?_⟩
  all_goals intro l hl x hx
  all_goals first
    | cases hl; done
    | skip
  all_goals injection hl with hl; subst hl
  all_goals first
    | exact (occurs_join _ _ _ (List.mem_map_of_mem hx)).pre _
    | exact (((occurs_join _ _ _ (List.mem_map_of_mem hx)).pre _).post _).post _
    | exact (occurs_join _ _ _ (List.mem_map.2 ⟨x, hx, rfl⟩)).pre _

/-- An ERROR shows the bare URI exactly when it carries neither arguments nor keyword arguments, not even empty ones. -/
theorem C70_error_bare_iff (str : Value → String) (uri : String) (args : Option (List Value)) (kwargs : Option PyDict) :
    errorStr str uri args kwargs = uri ↔ args = none ∧ kwargs = none := by
  rcases args with _ | as <;> rcases kwargs with _ | ks <;>
    simp only [errorStr, reduceCtorEq, and_false, false_and, and_self, iff_false]
  all_goals first
    | exact app_ne _ _ _ (by decide)
    | (simp only [String.append_assoc]; rw [← String.append_assoc]; exact app_ne _ _ _ (by decide))

example : errorStr (fun | .str s => s | _ => "?") "wamp.error.x" (some [.str "a", .str "b"]) (some [(.str "k", .str "v")]) =
      "wamp.error.x: a, b: k=v" ∧
    errorStr (fun _ => "?") "wamp.error.x" (some []) none = "wamp.error.x: " := by decide

end Wamp.Legacy
