import Verif.Proofs.Complaints
import Verif.Props.Wire

/-!
# C98 — what the sender of a bad message is told, word for word

Statements use `toMessage` (the library's `to_message`), the `parse` methods of the 24 classes (`Spec.classes`), and
`Spec/Complaints.lean`, which writes the texts down from the grammar table.
-/

namespace Wamp
open Spec

theorem nodup_inj {α β : Type} {f : α → β} : ∀ {l : List α}, (l.map f).Nodup → ∀ {x y}, x ∈ l → y ∈ l → f x = f y → x = y
  | [], _, _, _, hx, _, _ => by cases hx
  | a :: l, h, x, y, hx, hy, e => by
    rw [List.map_cons, List.nodup_cons] at h
    rcases List.mem_cons.1 hx with rfl | hx' <;> rcases List.mem_cons.1 hy with rfl | hy'
    · rfl
    · exact absurd (List.mem_map.2 ⟨y, hy', e.symm⟩) h.1
    · exact absurd (List.mem_map.2 ⟨x, hx', e⟩) h.1
    · exact nodup_inj h.2 hx' hy' e

theorem find_row {n : PyInt} {r : Row} (hr : r ∈ grammar) (hn : n.val = r.code) :
    grammar.find? (fun r => isCode n.toValue r.code) = some r := by
  have h1 : isCode n.toValue r.code = true := (isCode_iff _ _ (grammar_code_ne_zero r hr)).2 ⟨n, rfl, hn⟩
  cases hf : grammar.find? (fun r => isCode n.toValue r.code) with
  | none => rw [List.find?_eq_none] at hf; exact absurd h1 (hf r hr)
  | some r' =>
    have h2 := List.find?_some hf
    have hr' := List.mem_of_find?_eq_some hf
    obtain ⟨n', e, hn'⟩ := (isCode_iff _ _ (grammar_code_ne_zero r' hr')).1 h2
    have : n.val = n'.val := by
      cases n <;> cases n' <;> simp [PyInt.toValue] at e <;> subst e <;> rfl
    rw [grammar_code_inj r' hr' r hr (by rw [← hn', ← this, hn])]

theorem classes_codes : classes.map (·.1) = [1, 2, 3, 4, 5, 6, 48, 68, 70, 50, 64, 65, 66, 67, 32, 33, 34, 35, 16, 17, 36, 8, 49, 69] := rfl
theorem grammar_has_class : ∀ r ∈ grammar, r.code ∈ classes.map (·.1) := by rw [classes_codes]; decide

/-- For every decoded value at all: `to_message` returns a message exactly when `verdict` has nothing to object, and else
raises an exception of the class and with the strings that `verdict` says — every complaint, in the order of the fields,
with the position, the key, the expected and the actual type, spelled as in the format strings. -/
theorem C98_to_message (v : Value) :
    (verdict v = none → ∃ m, toMessage v = .ok m) ∧
    ∀ c texts, verdict v = some (c, texts) → ∃ e, toMessage v = .error e ∧ excClass e = c ∧ said e = texts := by
  cases v
  case list l =>
    cases l with
    | nil => exact ⟨fun h => (by cases h), fun c ts h => by cases h; exact ⟨.indexError, rfl, rfl, rfl⟩⟩
    | cons t elems =>
      cases ht : t.asInt? with
      | none =>
        have hi : isInt t = false := by cases t <;> first | rfl | cases ht
        have hv : verdict (.list (t :: elems)) =
            some ("TypeError", ["invalid message type '<class '" ++ pyType t ++ "'>', expected an integer"]) := by
          simp only [verdict, hi, Bool.not_false, if_true]
        have hm : toMessage (.list (t :: elems)) =
            .error (.typeError ("invalid message type '<class '" ++ pyType t ++ "'>', expected an integer")) := by
          have e1 : ("invalid message type '<class '" : String) = "invalid message type '" ++ "<class '" := by decide
          have e2 : ("'>', expected an integer" : String) = "'>" ++ "', expected an integer" := by decide
          simp only [toMessage, Value.asList?, index, List.getElem?_cons_zero, ht, Value.pyType, typeName_eq, e1, e2,
            String.append_assoc]
        rw [hv, hm]
        exact ⟨fun h => (by cases h), fun c ts h => by cases h; exact ⟨_, rfl, rfl, rfl⟩⟩
      | some n =>
        simp at ht; subst ht
        have hi : isInt n.toValue = true := by cases n <;> rfl
        rcases toMessage_class n elems with ⟨x, hx, hn, hm⟩ | ⟨hne, hm⟩
        · obtain ⟨r, hr, hc, h1, h2⟩ := (classes_say x hx).row
          have hf := find_row (n := n) hr (hn.trans hc.symm)
          have he : n.toValue.eqInt x.1 = true := (eqInt_toValue _ _).2 hn
          rw [hm]
          simp only [verdict, hi, Bool.not_true, hf]
          by_cases hl : r.lengthOk elems
          · rw [if_neg (by simp), if_neg (by simpa using hl)]
            rcases h1 n.toValue elems he hl with ⟨h3, m, h4⟩ | ⟨h3, es, h4, h5⟩
            · rw [if_pos h3]
              exact ⟨fun _ => ⟨m, h4⟩, fun c ts h => by cases h⟩
            · rw [if_neg h3]
              exact ⟨fun h => (by cases h), fun c ts h => by cases h; exact ⟨_, h4, rfl, h5⟩⟩
          · rw [if_neg (by simp), if_pos hl]
            refine ⟨fun h => (by cases h), fun c ts h => ?_⟩
            cases h
            refine ⟨_, h2 _ (fun ⟨t, el, e1, _, e3⟩ => by cases e1; exact hl e3), rfl, ?_⟩
            rw [refusal_cons, if_neg hl]; rfl
        · have hf : grammar.find? (fun r => isCode n.toValue r.code) = none := by
            rw [List.find?_eq_none]
            intro r hr h
            obtain ⟨n', e, hn'⟩ := (isCode_iff _ _ (grammar_code_ne_zero r hr)).1 h
            have : n.val = n'.val := by
              cases n <;> cases n' <;> simp [PyInt.toValue] at e <;> subst e <;> rfl
            obtain ⟨x, hx, hxc⟩ := List.mem_map.1 (grammar_has_class r hr)
            exact hne x hx (by rw [hxc, this, hn'])
          rw [hm]
          simp only [verdict, hi, Bool.not_true, hf]
          rw [if_neg (by simp)]
          exact ⟨fun h => (by cases h), fun c ts h => by cases h; exact ⟨_, rfl, rfl, rfl⟩⟩
  all_goals
    refine ⟨fun h => (by simp [verdict] at h), fun c ts h => ?_⟩
    have e1 : ("invalid type '<class '" : String) = "invalid type '" ++ "<class '" := by decide
    have e2 : ("'>', expected a list" : String) = "'>" ++ "', expected a list" := by decide
    simp only [verdict, Option.some.injEq, Prod.mk.injEq] at h
    obtain ⟨rfl, rfl⟩ := h
    refine ⟨_, rfl, rfl, ?_⟩
    simp only [said, Value.pyType, typeName_eq, e1, e2, String.append_assoc]

/-- A class's own `parse` compares the first element with its type code and looks at it no further: a list that starts with
anything equal to the code (`1`, `True`, `1.0`) is read, or refused, as `to_message` reads or refuses the list with the code
itself in front. -/
theorem C98_parse_own (c : Int) (p : Value → Except Exc Message) (h : (c, p) ∈ classes) (t : Value) (elems : List Value)
    (ht : t.eqInt c = true) : p (.list (t :: elems)) = toMessage (.list (.int c :: elems)) := by
  have hc : (Value.int c).eqInt c = true := by simp [Value.eqInt]
  refine ((classes_say _ h).first t (.int c) elems ht hc).trans ?_
  rcases toMessage_class (.int c) elems with ⟨x, hx, hn, hm⟩ | ⟨hne, -⟩
  · have : x = (c, p) := by
      have hnd : (classes.map (·.1)).Nodup := by rw [classes_codes]; decide
      exact nodup_inj hnd hx h hn.symm
    subst this
    exact hm.symm
  · exact absurd rfl (hne _ h)

/-- Everything else — no list, a list of the wrong length, a list that starts with something else — is refused by the class
with a `ValueError` that says which of the three it is, and names the class. -/
theorem C98_parse_foreign (r : Row) (hr : r ∈ grammar) (p : Value → Except Exc Message) (h : (r.code, p) ∈ classes) (v : Value)
    (hv : ¬ ∃ t elems, v = .list (t :: elems) ∧ t.eqInt r.code = true ∧ r.lengthOk elems) :
    p v = .error (.valueError (r.refusal v)) := by
  obtain ⟨r', hr', hc, -, h2⟩ := (classes_say _ h).row
  rw [grammar_code_inj r' hr' r hr hc] at h2
  exact h2 v hv

/-- Every row of the grammar has its class, and every class its row. -/
theorem C98_every_class : (∀ r ∈ grammar, ∃ p, (r.code, p) ∈ classes) ∧ ∀ x ∈ classes, ∃ r ∈ grammar, r.code = x.1 := by
  refine ⟨fun r hr => ?_, fun x hx => ?_⟩
  · obtain ⟨x, hx, hc⟩ := List.mem_map.1 (grammar_has_class r hr)
    exact ⟨x.2, hc ▸ hx⟩
  · obtain ⟨r, hr, hc, -⟩ := (classes_say x hx).row
    exact ⟨r, hr, hc⟩

/-! ## The hypotheses can be met -/

/-- `False` is an int, but no id; the text calls it by its name. -/
example : verdict (.list [.int 35, .bool false]) =
    some ("ValueError", ["UNSUBSCRIBED: value at index 1 must be between '1' and '9007199254740992' but was False"]) := by decide +kernel
/-- Three complaints about one HELLO. -/
example : verdict (.list [.int 1, .dict [(.str "realm", .int 1)], .dict [(.str "authid", .int 123), (.str "role", .str "new")]]) =
    some ("ValueError", ["HELLO: value at index 1 must be of type 'string' but was dict",
      "HELLO: value at index 2 for key 'authid' must be of type 'string' but was int",
      "HELLO: value at index 2 for key 'roles' must be of type 'dict' but was NoneType"]) := by decide +kernel
/-- A request id out of range, and the first odd role of several. -/
example : verdict (.list [.int 48, .int (-1), .dict [], .none]) =
    some ("ValueError", ["CALL: value at index 1 must be between '1' and '9007199254740992' but was -1",
      "CALL: value at index 3 must be of type 'string' but was NoneType"]) := by decide +kernel
example : verdict (.list [.int 2, .int 1, .dict [(.str "roles", .dict [(.str "dealer", .none), (.str "x", .none), (.str "y", .none)])]]) =
    some ("ValueError", ["WELCOME: value at index 2 for roles key must be in ['callee', 'caller', 'publisher', 'subscriber', 'dealer', 'broker'] but was x"]) := by
  decide +kernel
example : verdict (.list [.int 7, .int 1]) = some ("ValueError", ["unknown message type"]) := by decide +kernel
example : verdict (.dict []) = some ("TypeError", ["invalid type '<class 'dict'>', expected a list"]) := by decide +kernel
example : verdict (.list [.int 35, .int 5]) = none := by decide +kernel

/-- `1.0 == 1`: HELLO's own `parse` takes a list that starts with the float, `to_message` does not. -/
example : (Value.float ⟨0x3ff0000000000000⟩).eqInt 1 = true ∧
    (∃ m, (Hello.parse (.list [.float ⟨0x3ff0000000000000⟩, .str "r", .dict [(.str "roles", .dict [(.str "caller", .dict [])])]])) = .ok m) ∧
    ¬ ∃ m, toMessage (.list [.float ⟨0x3ff0000000000000⟩, .str "r", .dict [(.str "roles", .dict [(.str "caller", .dict [])])]]) = .ok m := by
  refine ⟨by decide +kernel, ⟨⟨"r", [(.str "caller", .dict [])], none, none, none⟩, by decide +kernel⟩, ?_⟩
  rintro ⟨m, h⟩; cases h

/-- A CALL handed to `Hello.parse`. -/
example : (grammar[0]).refusal (.list [.int 48, .int 1, .dict []]) = "invalid message id 48 for HELLO, expected 1" := by
  decide +kernel
example : (grammar[0]).refusal (.str "msg") = "invalid message type str for HELLO, type should be a list" := by decide +kernel
example : (grammar[0]).refusal (.list []) = "invalid message length 0, must be at least 3" := by decide +kernel

end Wamp
