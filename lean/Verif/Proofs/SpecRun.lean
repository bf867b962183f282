import Verif.Spec.Wire
import Verif.Proofs.WireLemmas
import Verif.Proofs.DetailsOk

/-! The validator tables implement the grammar rows. -/

namespace Wamp
open Spec

theorem get?_eq_entry (d : PyDict) (key : String) : PyDict.get? d key = entry d key := by
  unfold entry
  induction d with
  | nil => rfl
  | cons kv rest ih =>
    obtain ⟨k, v⟩ := kv
    cases k <;> simp only [PyDict.get?, List.find?, reduceCtorEq, decide_false, ih]
    rename_i s
    by_cases h : s = key
    · simp [h]
    · simp [h]

/-- Validator `func` reports exactly the offences of kind `k`. -/
def Impl (func : Validator) (k : Kind) : Prop :=
  ∀ (msg : List Value) (i : Nat) (f : Fields) (name : String) (v : Value), msg[i]? = some v →
    ∃ f' es, func msg i f name = .ok (f', es) ∧ es.map subject = (k.offences v).map fun key => (name, i, key)

/-- Validator `func` accepts a missing element. -/
def Opt (func : Validator) : Prop :=
  ∀ (msg : List Value) (i : Nat) (f : Fields) (name : String), msg.length ≤ i → func msg i f name = .ok (f, [])

def Impls (minLen : Nat) : Nat → List (Nat × Validator) → List Kind → Prop
  | _, [], [] => True
  | i, (j, func) :: ps, k :: ks => j = i ∧ Impl func k ∧ (i < minLen ∨ Opt func) ∧ Impls minLen (i + 1) ps ks
  | _, _, _ => False

theorem runSpec_impl {minLen : Nat} (ps : List (Nat × Validator)) (ks : List Kind) (i : Nat) (h : Impls minLen i ps ks)
    (msg : List Value) (hm : minLen ≤ msg.length) (f : Fields) (name : String) :
    ∃ f' es, runSpec ps msg f name = .ok (f', es) ∧
      es.map subject = ((ks.zip (msg.drop i)).zipIdx i).flatMap
        fun ((k, v), j) => (k.offences v).map fun key => (name, j, key) := by
  induction ps generalizing ks i f with
  | nil =>
    cases ks with
    | nil => exact ⟨f, [], rfl, by simp⟩
    | cons k ks => exact absurd h (by simp [Impls])
  | cons p ps ih =>
    obtain ⟨j, func⟩ := p
    cases ks with
    | nil => exact absurd h (by simp [Impls])
    | cons k ks =>
      simp only [Impls] at h
      obtain ⟨rfl, hi, ho, hr⟩ := h
      by_cases hl : j < msg.length
      · obtain ⟨f1, e1, h1, h1'⟩ := hi msg j f name msg[j] (by simp [hl])
        obtain ⟨f2, e2, h2, h2'⟩ := ih ks (j + 1) hr f1
        refine ⟨f2, e1 ++ e2, by simp [runSpec, h1, h2], ?_⟩
        rw [List.map_append, h1', h2', List.drop_eq_getElem_cons hl]
        rfl
      · have hopt := ho.resolve_left (by omega)
        obtain ⟨f2, e2, h2, h2'⟩ := ih ks (j + 1) hr f
        refine ⟨f2, e2, by simp [runSpec, hopt msg j f name (by omega), h2], ?_⟩
        rw [h2', List.drop_eq_nil_of_le (by omega), List.drop_eq_nil_of_le (by omega)]
        simp

theorem fieldValidator_impl {α} {check : Value → Nat → String → Except FieldError α} {store} {k : Kind}
    (h : ∀ v i name, (∃ a, check v i name = .ok a ∧ k.offences v = []) ∨
      (∃ e, check v i name = .error e ∧ k.offences v = [none] ∧ subject e = (name, i, none))) :
    Impl (fieldValidator check store) k := by
  intro msg i f name v hv
  rcases h v i name with ⟨a, h1, h2⟩ | ⟨e, h1, h2, h3⟩
  · exact ⟨store f a, [], by simp [fieldValidator, index, hv, h1], by simp [h2]⟩
  · exact ⟨f, [e], by simp [fieldValidator, index, hv, h1], by simp [h2, h3]⟩

theorem validateInt_cases (v i name) : (∃ a, validateInt v i name = .ok a ∧ Kind.int.offences v = []) ∨
    (∃ e, validateInt v i name = .error e ∧ Kind.int.offences v = [none] ∧ subject e = (name, i, none)) := by
  cases v <;> simp [validateInt, Value.asInt?, Kind.offences, isInt, subject]
theorem validateString_cases (v i name) : (∃ a, validateString v i name = .ok a ∧ Kind.str.offences v = []) ∨
    (∃ e, validateString v i name = .error e ∧ Kind.str.offences v = [none] ∧ subject e = (name, i, none)) := by
  cases v <;> simp [validateString, Value.asStr?, Kind.offences, isStr, subject]
theorem validateList_cases (v i name) : (∃ a, validateList v i name = .ok a ∧ Kind.list.offences v = []) ∨
    (∃ e, validateList v i name = .error e ∧ Kind.list.offences v = [none] ∧ subject e = (name, i, none)) := by
  cases v <;> simp [validateList, Value.asList?, Kind.offences, isList, subject]
theorem validateDict_cases (v i name) : (∃ a, validateDict v i name = .ok a ∧ Kind.dict.offences v = []) ∨
    (∃ e, validateDict v i name = .error e ∧ Kind.dict.offences v = [none] ∧ subject e = (name, i, none)) := by
  cases v <;> simp [validateDict, Value.asDict?, Kind.offences, isDict, subject]
theorem isId_toValue (n : PyInt) : isId n.toValue = decide (ValidId n) := by
  cases n with
  | int n => rw [Bool.eq_iff_iff, decide_eq_true_eq]; simp [PyInt.toValue, isId, ValidId, PyInt.val]
  | bool b => cases b <;> simp [PyInt.toValue, isId, ValidId, PyInt.val]
theorem validateId_cases (v i name) : (∃ a, validateId v i name = .ok a ∧ Kind.id.offences v = []) ∨
    (∃ e, validateId v i name = .error e ∧ Kind.id.offences v = [none] ∧ subject e = (name, i, none)) := by
  cases h : validateId v i name with
  | ok a =>
    obtain ⟨rfl, hv⟩ := validateId_ok.1 h
    left; exact ⟨a, rfl, by simp [Kind.offences, isId_toValue, hv]⟩
  | error e =>
    right; refine ⟨e, rfl, ?_⟩
    unfold validateId at h
    cases h' : validateInt v i name with
    | error e' =>
      rw [h'] at h; cases h
      cases v <;> simp [validateInt, Value.asInt?] at h' <;> simp [← h', Kind.offences, isId, subject]
    | ok n =>
      rw [h'] at h
      have := validateInt_ok.1 h'
      subst this
      simp only at h
      split at h
      · cases h
        rename_i hk
        simp only [Bool.or_eq_true, decide_eq_true_eq] at hk
        simp only [MIN_ID, MAX_ID] at hk
        have : ¬ ValidId n := by unfold ValidId; omega
        simp [Kind.offences, subject, isId_toValue, this]
      · cases h

theorem validateArgs_impl : Impl validateArgs .list := by
  intro msg i f name v hv
  have : i < msg.length := by
    rcases Nat.lt_or_ge i msg.length with h | h
    · exact h
    · rw [List.getElem?_eq_none h] at hv; cases hv
  have h := fieldValidator_impl (store := fun (f : Fields) l => { f with args := some l }) validateList_cases msg i f name v hv
  simpa [validateArgs, this] using h
theorem validateKwargs_impl : Impl validateKwargs .dict := by
  intro msg i f name v hv
  have : i < msg.length := by
    rcases Nat.lt_or_ge i msg.length with h | h
    · exact h
    · rw [List.getElem?_eq_none h] at hv; cases hv
  have h := fieldValidator_impl (store := fun (f : Fields) l => { f with kwargs := some l }) validateDict_cases msg i f name v hv
  simpa [validateKwargs, this] using h
theorem validateArgs_opt : Opt validateArgs := by
  intro msg i f name h; simp [validateArgs, Nat.not_lt.2 h]
theorem validateKwargs_opt : Opt validateKwargs := by
  intro msg i f name h; simp [validateKwargs, Nat.not_lt.2 h]

/-- A details-entry validator reports exactly whether the entry is bad. -/
def EntryImpl (func : PyDict → Nat → Fields → String → Fields × List FieldError) (e : String × (Option Value → Bool)) : Prop :=
  ∀ d i f name, (func d i f name).2.map subject = if e.2 (entry d e.1) then [] else [(name, i, some e.1)]

theorem detailEntry_impl {α} {as? : Value → Option α} {p : Value → Bool} (hp : ∀ v, (as? v).isSome = p v)
    {key expected} {store : Fields → Option α → Fields} :
    EntryImpl (detailEntry as? key expected store) (key, absentOr p) := by
  intro d i f name
  simp only [detailEntry, PyDict.getD, get?_eq_entry]
  cases h : entry d key with
  | none => simp [absentOr]
  | some v =>
    simp only [Option.getD_some]
    have := hp v
    cases v <;> simp only [absentOr] <;> try simp
    all_goals
      rename_i x
      split <;> rename_i h2 <;> rw [h2] at this <;> simp [← this, subject]

theorem validateRoles_impl : EntryImpl validateRoles ("roles", isRoles) := by
  intro d i f name
  simp only [validateRoles, PyDict.getD, get?_eq_entry]
  cases h : entry d "roles" with
  | none => simp [isRoles, Value.asDict?, subject]
  | some v =>
    cases v
    case dict r =>
     simp only [Option.getD_some, Value.asDict?]
     by_cases hr : r = []
     · subst hr; simp [subject, isRoles]
     · have h0 : ¬ r.length = 0 := by simpa using hr
       rw [if_neg h0]
       cases hb : firstBadRole r with
       | none =>
         have := firstBadRole_none.1 hb
         have h1 : isRoles (some (.dict r)) = true := by
           simp only [isRoles, Bool.and_eq_true, Bool.not_eq_true', List.isEmpty_eq_false_iff, List.all_eq_true, List.any_eq_true,
             decide_eq_true_eq]
           exact ⟨hr, this⟩
         rw [if_pos h1]; rfl
       | some b =>
         have h1 : ¬ isRoles (some (.dict r)) = true := by
           simp only [isRoles, Bool.and_eq_true, Bool.not_eq_true', List.isEmpty_eq_false_iff, List.all_eq_true, List.any_eq_true,
             decide_eq_true_eq]
           rintro ⟨-, h⟩
           have := firstBadRole_none.2 h
           rw [hb] at this; cases this
         rw [if_neg h1]; rfl
    all_goals simp [Value.asDict?, isRoles, subject]

def EntryImpls : List (PyDict → Nat → Fields → String → Fields × List FieldError) →
    List (String × (Option Value → Bool)) → Prop
  | [], [] => True
  | v :: vs, e :: es => EntryImpl v e ∧ EntryImpls vs es
  | _, _ => False

theorem seqDetails_impl (vs : List (PyDict → Nat → Fields → String → Fields × List FieldError))
    (es : List (String × (Option Value → Bool))) (h : EntryImpls vs es) (d i f name) :
    (seqDetails vs d i f name).2.map subject = (badEntries es d).map fun key => (name, i, key) := by
  induction vs generalizing f es with
  | nil =>
    cases es with
    | nil => rfl
    | cons => exact absurd h (by simp [EntryImpls])
  | cons func vs ih =>
    cases es with
    | nil => exact absurd h (by simp [EntryImpls])
    | cons e es =>
    obtain ⟨h1, h2⟩ := h
    simp only [seqDetails, List.map_append, h1 d i f name, ih es h2, badEntries, List.filter_cons]
    cases e.2 (entry d e.1) <;> simp

theorem detailsValidator_impl {k : Kind} {es} (hk : ∀ d, k.offences (.dict d) = badEntries es d)
    (hk' : ∀ v, v.asDict? = none → k.offences v = [none])
    {vs} (h : EntryImpls vs es) : Impl (detailsValidator vs) k := by
  intro msg i f name v hv
  unfold detailsValidator
  simp only [index, hv]
  cases hd : v.asDict? with
  | none =>
    refine ⟨f, [.dataType name i "dict" v.typeName], by simp [validateDict, hd], by simp [hk' v hd, subject]⟩
  | some d =>
    have := asDict?_eq_some.1 hd
    subst this
    have hs := seqDetails_impl vs es h d i f name
    simp only [validateDict, hd, hk]
    cases hq : seqDetails vs d i f name with
    | mk f1 e1 =>
      rw [hq] at hs
      cases e1 with
      | nil => exact ⟨_, [], rfl, hs⟩
      | cons e e1 => exact ⟨f1, e :: e1, by simp, hs⟩

theorem isStr_as (v : Value) : v.asStr?.isSome = isStr v := by cases v <;> rfl
theorem isList_as (v : Value) : v.asList?.isSome = isList v := by cases v <;> rfl
theorem isDict_as (v : Value) : v.asDict?.isSome = isDict v := by cases v <;> rfl

theorem validateHelloDetails_impl : Impl validateHelloDetails .helloDetails := by
  refine detailsValidator_impl (es := helloEntries) (fun _ => rfl) (fun v h => ?_) ?_
  · cases v <;> simp [Value.asDict?] at h <;> rfl
  · exact ⟨detailEntry_impl isStr_as, detailEntry_impl isStr_as, detailEntry_impl isList_as, validateRoles_impl,
      detailEntry_impl isDict_as, trivial⟩
theorem validateWelcomeDetails_impl : Impl validateWelcomeDetails .welcomeDetails := by
  refine detailsValidator_impl (es := welcomeEntries) (fun _ => rfl) (fun v h => ?_) ?_
  · cases v <;> simp [Value.asDict?] at h <;> rfl
  · exact ⟨validateRoles_impl, detailEntry_impl isStr_as, detailEntry_impl isStr_as, detailEntry_impl isDict_as,
      detailEntry_impl isStr_as, trivial⟩

/-- A validation table implements a grammar row. -/
structure Implements (type_ : Int) (s : ValidationSpec) (r : Row) : Prop where
  code : type_ = r.code
  name : s.message = r.name
  minLen : s.minLength = r.required.length + 1
  maxLen : s.maxLength = r.kinds.length + 1
  table : Impls s.minLength 1 s.spec r.kinds

theorem refusal_nil (r : Row) : r.refusal (.list []) =
    "invalid message length 0, must be at least " ++ toString (r.required.length + 1) := rfl
theorem refusal_cons (r : Row) (t : Value) (elems : List Value) : r.refusal (.list (t :: elems)) =
    if r.lengthOk elems then "invalid message id " ++ t.pyStr ++ " for " ++ r.name ++ ", expected " ++ toString r.code
    else r.lengthText elems := rfl
theorem refusal_other (r : Row) (v : Value) (h : v.asList? = none) : r.refusal v =
    "invalid message type " ++ v.typeName ++ " for " ++ r.name ++ ", type should be a list" := by
  cases v <;> first | rfl | cases h

/-- Outcome of `validate_message` on any value, in terms of the row. -/
theorem validateMessage_impl {type_ s r} (h : Implements type_ s r) (v : Value) :
    (∃ t elems, v = .list (t :: elems) ∧ t.eqInt r.code = true ∧ r.lengthOk elems ∧
      ((r.offences elems = [] ∧ ∃ f, validateMessage v type_ s = .ok f) ∨
       (r.offences elems ≠ [] ∧ ∃ es, validateMessage v type_ s = .error (.invalid es) ∧
          es.map subject = r.offences elems))) ∨
    ((¬ ∃ t elems, v = .list (t :: elems) ∧ t.eqInt r.code = true ∧ r.lengthOk elems) ∧
      validateMessage v type_ s = .error (.valueError (r.refusal v))) := by
  obtain ⟨rfl, hname, hmin, hmax, htab⟩ := h
  cases v with
  | list l =>
    by_cases h1 : l.length < s.minLength
    · right
      refine ⟨?_, ?_⟩
      · rintro ⟨t, elems, he, -, h3, h4⟩; cases he; simp at h1; omega
      · have e : validateMessage (.list l) r.code s = .error (.valueError
            ("invalid message length " ++ toString l.length ++ ", must be at least " ++ toString s.minLength)) := by
          simp only [validateMessage, sanityCheck, Value.asList?, if_pos h1]
        rw [e, hmin]
        cases l with
        | nil =>
          have e0 : "invalid message length " ++ toString ([] : List Value).length ++ ", must be at least " =
            "invalid message length 0, must be at least " := by decide
          rw [e0, refusal_nil]
        | cons t elems =>
          have hlt : elems.length < r.required.length := by simp at h1; omega
          have : ¬ r.lengthOk elems := fun h => by have := h.1; omega
          simp only [refusal_cons, if_neg this, Row.lengthText, if_pos hlt, List.length_cons]
    · by_cases h2 : l.length > s.maxLength
      · right
        refine ⟨?_, ?_⟩
        · rintro ⟨t, elems, he, -, h3, h4⟩; cases he; simp at h2; omega
        · have e : validateMessage (.list l) r.code s = .error (.valueError
              ("invalid message length " ++ toString l.length ++ ", must be at most " ++ toString s.maxLength)) := by
            simp only [validateMessage, sanityCheck, Value.asList?, if_neg h1, if_pos h2]
          rw [e, hmax]
          cases l with
          | nil => simp at h2
          | cons t elems =>
            have hge : ¬ elems.length < r.required.length := by simp at h1; omega
            have : ¬ r.lengthOk elems := fun h => by have := h.2; simp at h2; omega
            simp only [refusal_cons, if_neg this, Row.lengthText, if_neg hge, List.length_cons]
      · cases l with
        | nil => simp at h1; omega
        | cons t elems =>
          by_cases h3 : t.eqInt r.code = true
          · left
            refine ⟨t, elems, rfl, h3, ?_, ?_⟩
            · constructor <;> simp at h1 h2 <;> omega
            · have hs : sanityCheck (.list (t :: elems)) s.minLength s.maxLength r.code s.message = .ok (t :: elems) := by
                rw [sanityCheck_ok]; exact ⟨rfl, by omega, by omega, t, rfl, h3⟩
              obtain ⟨f', es, hr, hr'⟩ := runSpec_impl s.spec r.kinds 1 htab (t :: elems) (by omega) {} s.message
              have hr'' : es.map subject = r.offences elems := by rw [hr']; unfold Row.offences; simp [hname]
              simp only [validateMessage, hs, hr]
              cases es with
              | nil => left; exact ⟨hr''.symm, f', by simp⟩
              | cons e es => right; exact ⟨by rw [← hr'']; simp, e :: es, by simp, hr''⟩
          · right
            have hl : r.lengthOk elems := by constructor <;> simp at h1 h2 <;> omega
            refine ⟨?_, ?_⟩
            · rintro ⟨t', elems', he, h4, -⟩; cases he; exact h3 h4
            · simp only [validateMessage, sanityCheck, Value.asList?, if_neg h1, if_neg h2, refusal_cons, if_pos hl]
              simp only [index, List.getElem?_cons_zero, h3, hname, Bool.not_false, if_true]
  | _ => right; exact ⟨(fun ⟨_, _, h, _⟩ => by cases h), by rw [refusal_other _ _ rfl]; simp only [validateMessage, sanityCheck, Value.asList?, hname]⟩

end Wamp
