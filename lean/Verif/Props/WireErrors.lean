import Verif.Proofs.ErrorsTrue
import Verif.Props.Wire

/-!
# C93 — what a ValueError says of a message is so

Statements use `toMessage` (the library's `to_message`) and `Spec/Wire.lean`: the grammar table, and `Truthful`, which says
what each kind of error entry claims about the decoded list.
-/

namespace Wamp
open Spec

/-- An entry that says "value at index i must be of type T but was U" is only ever produced when the value at index i is
not of type T and its type is U; one that says "must be between 1 and 2^53 but was n" only when n is there and outside
that range; an entry about a key of the details only when what the dict has under that key is of the type named and not of
the one demanded; an entry about roles only when the roles are empty, or the role named is among them and is no WAMP role. -/
theorem C93_entries_true (v : Value) (es : List FieldError) (h : toMessage v = .error (.invalid es)) :
    ∃ l, v = .list l ∧ ∀ e ∈ es, Truthful l e :=
  toMessage_honest h

/-- There is at least one entry. -/
theorem C93_some_entry (v : Value) (es : List FieldError) (h : toMessage v = .error (.invalid es)) : es ≠ [] := by
  obtain ⟨l, rfl, -⟩ := toMessage_honest h
  cases l with
  | nil => cases h
  | cons t elems =>
    cases ht : t.asInt? with
    | none => simp [toMessage, Value.asList?, index, ht] at h
    | some n =>
      simp at ht; subst ht
      rcases toMessage_row n elems with ⟨r, hr, hc, ho⟩ | ⟨-, he⟩
      · rcases ho with ⟨-, ⟨-, m, h1⟩ | ⟨h0, es', h1, h2⟩⟩ | ⟨-, h1⟩
        · rw [h] at h1; cases h1
        · rw [h] at h1
          injection h1 with h1; injection h1 with h1
          subst h1
          rintro rfl
          exact h0 h2.symm
        · rw [h] at h1
          injection h1 with h1; cases h1
      · rw [h] at he; cases he

/-- A message of a known type but the wrong length is refused with a text that gives its length and the bound it broke. -/
theorem C93_wrong_length (r : Row) (hr : r ∈ grammar) (t : Value) (elems : List Value) (ht : isCode t r.code = true)
    (hl : ¬ r.lengthOk elems) : toMessage (.list (t :: elems)) = .error (.valueError (r.lengthText elems)) := by
  obtain ⟨n, rfl, hn⟩ := (isCode_iff _ _ (grammar_code_ne_zero r hr)).1 ht
  rcases toMessage_row n elems with ⟨r', hr', hc', ho'⟩ | ⟨hne, -⟩
  · have : r = r' := grammar_code_inj r hr r' hr' (by rw [← hn, hc'])
    subst this
    rcases ho' with ⟨h1, -⟩ | ⟨-, h1⟩
    · exact absurd h1 hl
    · exact h1
  · exact absurd hn (hne r hr)

/-! ## The hypotheses can be met -/

/-- Four kinds of entries in one WELCOME. -/
example : toMessage (.list [.int 2, .int (2 ^ 53 + 1), .dict [(.str "roles", .dict [(.str "x", .none)]), (.str "authid", .int 3)]]) =
    .error (.invalid [.range "WELCOME" 1 1 (2 ^ 53) (.int (2 ^ 53 + 1)), .rolesInvalid "WELCOME" 2 (.str "x"),
      .detail "WELCOME" 2 "authid" "string" "int"]) := by decide

/-- The type a reader is told is the type the value has: `None` is a `NoneType`, not a dict. -/
example : toMessage (.list [.int 32, .bytes [1], .none, .str "t"]) =
    .error (.invalid [.dataType "SUBSCRIBE" 1 "int" "bytes", .dataType "SUBSCRIBE" 2 "dict" "NoneType"]) := by decide

example : ¬ (grammar[0]).lengthOk [.str "realm"] ∧
    (grammar[0]).lengthText [.str "realm"] = "invalid message length 2, must be at least 3" := by
  exact ⟨by decide, by decide⟩
example : ¬ (grammar[0]).lengthOk [.str "realm", .dict [], .int 1] ∧
    (grammar[0]).lengthText [.str "realm", .dict [], .int 1] = "invalid message length 4, must be at most 3" := by
  exact ⟨by decide, by decide⟩

end Wamp
