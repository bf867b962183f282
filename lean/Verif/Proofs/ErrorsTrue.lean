import Verif.Proofs.ToMessage

/-! What the entries of a `ValueError` of field validation say is so. -/

namespace Wamp
open Spec

/-- A validator that tells the truth -/
def Honest (V : Validator) : Prop := ∀ l i f name,
  (∀ f' es, V l i f name = .ok (f', es) → ∀ e ∈ es, Truthful l e) ∧ ∀ e, V l i f name = .error e → e = .indexError

theorem typeName_eq (v : Value) : v.typeName = pyType v := by cases v <;> rfl

theorem fieldValidator_honest {α : Type} {check : Value → Nat → String → Except FieldError α} {store : Fields → α → Fields}
    (h : ∀ l v i name e, l[i]? = some v → check v i name = .error e → Truthful l e) : Honest (fieldValidator check store) := by
  intro l i f name
  refine ⟨fun f' es hr e he => ?_, fun e hr => ?_⟩ <;> unfold fieldValidator index at hr
  · cases hv : l[i]? with
    | none => simp [hv] at hr
    | some v =>
      simp only [hv] at hr
      cases hc : check v i name with
      | ok a => simp only [hc] at hr; cases hr; cases he
      | error e' =>
        simp only [hc] at hr; cases hr
        rw [List.mem_singleton.1 he]
        exact h l v i name e' hv hc
  · cases hv : l[i]? with
    | none => simp only [hv] at hr; cases hr; rfl
    | some v =>
      simp only [hv] at hr
      cases hc : check v i name <;> simp [hc] at hr

theorem validateInt_true (l : List Value) (v : Value) (i : Nat) (name : String) (e : FieldError) (hv : l[i]? = some v)
    (h : validateInt v i name = .error e) : Truthful l e := by
  cases v <;> simp [validateInt, Value.asInt?] at h <;> subst h <;> exact ⟨by decide, _, hv, rfl, typeName_eq _⟩

theorem validateString_true (l : List Value) (v : Value) (i : Nat) (name : String) (e : FieldError) (hv : l[i]? = some v)
    (h : validateString v i name = .error e) : Truthful l e := by
  cases v <;> simp [validateString, Value.asStr?] at h <;> subst h <;> exact ⟨by decide, _, hv, rfl, typeName_eq _⟩

theorem validateList_true (l : List Value) (v : Value) (i : Nat) (name : String) (e : FieldError) (hv : l[i]? = some v)
    (h : validateList v i name = .error e) : Truthful l e := by
  cases v <;> simp [validateList, Value.asList?] at h <;> subst h <;> exact ⟨by decide, _, hv, rfl, typeName_eq _⟩

theorem validateDict_true (l : List Value) (v : Value) (i : Nat) (name : String) (e : FieldError) (hv : l[i]? = some v)
    (h : validateDict v i name = .error e) : Truthful l e := by
  cases v <;> simp [validateDict, Value.asDict?] at h <;> subst h <;> exact ⟨by decide, _, hv, rfl, typeName_eq _⟩

theorem validateId_true (l : List Value) (v : Value) (i : Nat) (name : String) (e : FieldError) (hv : l[i]? = some v)
    (h : validateId v i name = .error e) : Truthful l e := by
  unfold validateId at h
  cases hc : validateInt v i name with
  | error e' => rw [hc] at h; cases h; exact validateInt_true l v i name _ hv hc
  | ok n =>
    rw [hc] at h
    simp only at h
    split at h
    · cases h
      rename_i hr
      simp only [Bool.or_eq_true, MIN_ID, MAX_ID] at hr
      refine ⟨rfl, rfl, ?_⟩
      cases v <;> simp [validateInt, Value.asInt?] at hc
      · subst hc
        rename_i b
        cases b
        · exact .inr ⟨hv, rfl⟩
        · simp [PyInt.val] at hr
      · subst hc; exact .inl ⟨_, hv, rfl, hr.imp of_decide_eq_true of_decide_eq_true⟩
    · cases h

theorem args_honest : Honest validateArgs := by
  intro l i f name
  unfold validateArgs
  split
  · exact fieldValidator_honest validateList_true l i f name
  · exact ⟨fun f' es hr e he => (by cases hr; cases he), fun e hr => (by cases hr)⟩

theorem kwargs_honest : Honest validateKwargs := by
  intro l i f name
  unfold validateKwargs
  split
  · exact fieldValidator_honest validateDict_true l i f name
  · exact ⟨fun f' es hr e he => (by cases hr; cases he), fun e hr => (by cases hr)⟩

/-- A check of a details dict that tells the truth -/
def HonestD (V : PyDict → Nat → Fields → String → Fields × List FieldError) : Prop :=
  ∀ l d i f name, l[i]? = some (.dict d) → ∀ e ∈ (V d i f name).2, Truthful l e

theorem detailEntry_honest {α : Type} {as? : Value → Option α} {key expected : String} {store : Fields → Option α → Fields}
    (hx : expected ∈ ["string", "list", "dict"]) (h : ∀ v, as? v = none → ofType expected v = false) :
    HonestD (detailEntry as? key expected store) := by
  intro l d i f name hd e he
  unfold detailEntry at he
  have hg : PyDict.getD d key = (entry d key).getD .none := by rw [PyDict.getD, get?_eq_entry]
  split at he
  · cases he
  · rename_i v hn
    split at he
    · cases he
    · rename_i ha
      rw [List.mem_singleton.1 he]
      rw [hg] at ha
      refine ⟨hx, d, hd, h _ ha, ?_⟩
      rw [typeName_eq, hg]

theorem firstBadRole_some : ∀ {r : PyDict} {role : Value}, firstBadRole r = some role →
    role ∈ r.map (·.1) ∧ ∀ s ∈ roleNames, role ≠ .str s
  | [], _, h => by cases h
  | (k, v) :: r, role, h => by
    rw [firstBadRole] at h
    split at h
    · have := firstBadRole_some h
      exact ⟨List.mem_cons_of_mem _ this.1, this.2⟩
    · rename_i ha
      cases h
      refine ⟨List.mem_cons_self, fun s hs e => ha ?_⟩
      rw [e]
      exact List.contains_iff_mem.2 hs

theorem roles_honest : HonestD validateRoles := by
  intro l d i f name hd e he
  have hg : PyDict.getD d "roles" = (entry d "roles").getD .none := by rw [PyDict.getD, get?_eq_entry]
  unfold validateRoles at he
  simp only at he
  split at he
  · rename_i hn
    rw [List.mem_singleton.1 he]
    refine ⟨by decide, d, hd, ?_, by rw [typeName_eq, hg]⟩
    rw [hg] at hn
    generalize (entry d "roles").getD .none = v at hn
    cases v <;> first | rfl | cases hn
  · rename_i r hr
    have hr' : entry d "roles" = some (.dict r) := by
      rw [hg] at hr
      cases hx : entry d "roles" with
      | none => rw [hx] at hr; cases hr
      | some v => rw [hx] at hr; cases v <;> cases hr; rfl
    split at he
    · rename_i h0
      rw [List.mem_singleton.1 he]
      rw [List.length_eq_zero_iff.1 h0] at hr'
      exact ⟨d, hd, hr'⟩
    · split at he
      · rename_i role hb
        rw [List.mem_singleton.1 he]
        exact ⟨d, r, hd, hr', firstBadRole_some hb⟩
      · cases he

theorem str_none (v : Value) (h : v.asStr? = none) : ofType "string" v = false := by cases v <;> first | rfl | cases h
theorem list_none (v : Value) (h : v.asList? = none) : ofType "list" v = false := by cases v <;> first | rfl | cases h
theorem dict_none (v : Value) (h : v.asDict? = none) : ofType "dict" v = false := by cases v <;> first | rfl | cases h

theorem seqDetails_honest : ∀ vs, (∀ V ∈ vs, HonestD V) → HonestD (seqDetails vs)
  | [], _ => by intro l d i f name _ e he; cases he
  | V :: vs, h => by
    intro l d i f name hd e he
    rw [seqDetails] at he
    rcases List.mem_append.1 he with he | he
    · exact h V List.mem_cons_self l d i f name hd e he
    · exact seqDetails_honest vs (fun V' h' => h V' (List.mem_cons_of_mem _ h')) l d i _ name hd e he

theorem detailsValidator_honest {vs} (h : ∀ V ∈ vs, HonestD V) : Honest (detailsValidator vs) := by
  intro l i f name
  refine ⟨fun f' es hr e he => ?_, fun e hr => ?_⟩ <;> unfold detailsValidator index at hr
  · cases hv : l[i]? with
    | none => simp [hv] at hr
    | some v =>
      simp only [hv] at hr
      cases hc : validateDict v i name with
      | error e' =>
        simp only [hc] at hr; cases hr
        rw [List.mem_singleton.1 he]
        exact validateDict_true l v i name e' hv hc
      | ok d =>
        simp only [hc] at hr
        have hd : l[i]? = some (.dict d) := by
          cases v <;> simp [validateDict, Value.asDict?] at hc
          rw [hv, hc]
        split at hr
        · cases hr
          exact seqDetails_honest vs h l d i f name hd e he
        · cases hr; cases he
  · cases hv : l[i]? with
    | none => simp only [hv] at hr; cases hr; rfl
    | some v =>
      simp only [hv] at hr
      cases hc : validateDict v i name with
      | error e' => simp [hc] at hr
      | ok d => simp only [hc] at hr; split at hr <;> cases hr

theorem hello_honest : Honest validateHelloDetails := by
  refine detailsValidator_honest fun V hV => ?_
  simp only [List.mem_cons, List.not_mem_nil, or_false] at hV
  rcases hV with rfl | rfl | rfl | rfl | rfl
  · exact detailEntry_honest (by decide) str_none
  · exact detailEntry_honest (by decide) str_none
  · exact detailEntry_honest (by decide) list_none
  · exact roles_honest
  · exact detailEntry_honest (by decide) dict_none

theorem welcome_honest : Honest validateWelcomeDetails := by
  refine detailsValidator_honest fun V hV => ?_
  simp only [List.mem_cons, List.not_mem_nil, or_false] at hV
  rcases hV with rfl | rfl | rfl | rfl | rfl
  · exact roles_honest
  · exact detailEntry_honest (by decide) str_none
  · exact detailEntry_honest (by decide) str_none
  · exact detailEntry_honest (by decide) dict_none
  · exact detailEntry_honest (by decide) str_none

theorem runSpec_honest : ∀ (spec : List (Nat × Validator)), (∀ x ∈ spec, Honest x.2) → ∀ l f name,
    (∀ f' es, runSpec spec l f name = .ok (f', es) → ∀ e ∈ es, Truthful l e) ∧
    ∀ e, runSpec spec l f name = .error e → e = .indexError
  | [], _, l, f, name => ⟨fun f' es h e he => (by cases h; cases he), fun e h => (by cases h)⟩
  | (i, V) :: spec, hs, l, f, name => by
    have hV := hs _ List.mem_cons_self l i f name
    rw [runSpec]
    cases h1 : V l i f name with
    | error e => exact ⟨fun f' es h => (by cases h), fun e' h => (by cases h; exact hV.2 _ h1)⟩
    | ok x =>
      obtain ⟨f1, e1⟩ := x
      have ih := runSpec_honest spec (fun x hx => hs x (List.mem_cons_of_mem _ hx)) l f1 name
      simp only
      cases h2 : runSpec spec l f1 name with
      | error e => exact ⟨fun f' es h => (by cases h), fun e' h => (by cases h; exact ih.2 _ h2)⟩
      | ok y =>
        refine ⟨fun f' es h e he => ?_, fun e h => (by cases h)⟩
        cases h
        rcases List.mem_append.1 he with he | he
        · exact hV.1 f1 e1 h1 e he
        · exact ih.1 y.1 y.2 h2 e he

/-- A message class whose errors are true -/
def HonestSpec (s : ValidationSpec) : Prop := ∀ x ∈ s.spec, Honest x.2

theorem validateMessage_honest {s : ValidationSpec} (hs : HonestSpec s) {v : Value} {c : Int} {es : List FieldError}
    (h : validateMessage v c s = .error (.invalid es)) : ∃ l, v = .list l ∧ ∀ e ∈ es, Truthful l e := by
  unfold validateMessage at h
  cases hc : sanityCheck v s.minLength s.maxLength c s.message with
  | error e =>
    rw [hc] at h
    simp only at h
    cases h
    exfalso
    unfold sanityCheck index at hc
    split at hc
    · cases hc
    · split at hc
      · cases hc
      · split at hc
        · cases hc
        · split at hc
          · rename_i h1
            split at h1 <;> cases h1
            cases hc
          · split at hc <;> cases hc
  | ok l =>
    rw [hc] at h
    simp only at h
    have hv : v = .list l := by
      unfold sanityCheck at hc
      cases v <;> simp [Value.asList?] at hc
      split at hc
      · cases hc
      · split at hc
        · cases hc
        · split at hc
          · cases hc
          · split at hc <;> cases hc
            rfl
    cases hr : runSpec s.spec l {} s.message with
    | error e =>
      rw [hr] at h; cases h
      cases (runSpec_honest s.spec hs l {} s.message).2 _ hr
    | ok x =>
      rw [hr] at h
      simp only at h
      split at h
      · cases h
        exact ⟨l, hv, (runSpec_honest s.spec hs l {} s.message).1 x.1 x.2 hr⟩
      · cases h

/-- Every class checks its fields with validators that tell the truth. -/
theorem parse_honest {α : Type} {p : Value → Except Exc α} {c : Int} {s : ValidationSpec} (hs : HonestSpec s)
    (ht : ∀ v f, validateMessage v c s = .ok f → ∃ m, p v = .ok m)
    (he : ∀ v e, validateMessage v c s = .error e → p v = .error e) {β : Type} {g : α → β} {v : Value} {es : List FieldError}
    (h : (p v).map g = .error (.invalid es)) : ∃ l, v = .list l ∧ ∀ e ∈ es, Truthful l e := by
  cases hv : validateMessage v c s with
  | ok f =>
    obtain ⟨m, hm⟩ := ht v f hv
    rw [hm] at h; cases h
  | error e =>
    rw [he v e hv] at h
    cases h
    exact validateMessage_honest hs hv

theorem Hello.honest : HonestSpec Hello.spec := by
  intro x hx
  simp only [Hello.spec, List.mem_cons, List.not_mem_nil, or_false] at hx
  rcases hx with rfl | rfl
  · exact fieldValidator_honest validateString_true
  · exact hello_honest

theorem Welcome.honest : HonestSpec Welcome.spec := by
  intro x hx
  simp only [Welcome.spec, List.mem_cons, List.not_mem_nil, or_false] at hx
  rcases hx with rfl | rfl
  · exact fieldValidator_honest validateId_true
  · exact welcome_honest

theorem Abort.honest : HonestSpec Abort.spec := by
  intro x hx
  simp only [Abort.spec, List.mem_cons, List.not_mem_nil, or_false] at hx
  rcases hx with rfl | rfl | rfl | rfl
  · exact fieldValidator_honest validateDict_true
  · exact fieldValidator_honest validateString_true
  · exact args_honest
  · exact kwargs_honest

theorem Challenge.honest : HonestSpec Challenge.spec := by
  intro x hx
  simp only [Challenge.spec, List.mem_cons, List.not_mem_nil, or_false] at hx
  rcases hx with rfl | rfl
  · exact fieldValidator_honest validateString_true
  · exact fieldValidator_honest validateDict_true

theorem Authenticate.honest : HonestSpec Authenticate.spec := by
  intro x hx
  simp only [Authenticate.spec, List.mem_cons, List.not_mem_nil, or_false] at hx
  rcases hx with rfl | rfl
  · exact fieldValidator_honest validateString_true
  · exact fieldValidator_honest validateDict_true

theorem Goodbye.honest : HonestSpec Goodbye.spec := by
  intro x hx
  simp only [Goodbye.spec, List.mem_cons, List.not_mem_nil, or_false] at hx
  rcases hx with rfl | rfl
  · exact fieldValidator_honest validateDict_true
  · exact fieldValidator_honest validateString_true

theorem Call.honest : HonestSpec Call.spec := by
  intro x hx
  simp only [Call.spec, List.mem_cons, List.not_mem_nil, or_false] at hx
  rcases hx with rfl | rfl | rfl | rfl | rfl
  · exact fieldValidator_honest validateId_true
  · exact fieldValidator_honest validateDict_true
  · exact fieldValidator_honest validateString_true
  · exact args_honest
  · exact kwargs_honest

theorem Invocation.honest : HonestSpec Invocation.spec := by
  intro x hx
  simp only [Invocation.spec, List.mem_cons, List.not_mem_nil, or_false] at hx
  rcases hx with rfl | rfl | rfl | rfl | rfl
  · exact fieldValidator_honest validateId_true
  · exact fieldValidator_honest validateId_true
  · exact fieldValidator_honest validateDict_true
  · exact args_honest
  · exact kwargs_honest

theorem Yield.honest : HonestSpec Yield.spec := by
  intro x hx
  simp only [Yield.spec, List.mem_cons, List.not_mem_nil, or_false] at hx
  rcases hx with rfl | rfl | rfl | rfl
  · exact fieldValidator_honest validateId_true
  · exact fieldValidator_honest validateDict_true
  · exact args_honest
  · exact kwargs_honest

theorem Result.honest : HonestSpec Result.spec := by
  intro x hx
  simp only [Result.spec, List.mem_cons, List.not_mem_nil, or_false] at hx
  rcases hx with rfl | rfl | rfl | rfl
  · exact fieldValidator_honest validateId_true
  · exact fieldValidator_honest validateDict_true
  · exact args_honest
  · exact kwargs_honest

theorem Register.honest : HonestSpec Register.spec := by
  intro x hx
  simp only [Register.spec, List.mem_cons, List.not_mem_nil, or_false] at hx
  rcases hx with rfl | rfl | rfl
  · exact fieldValidator_honest validateId_true
  · exact fieldValidator_honest validateDict_true
  · exact fieldValidator_honest validateString_true

theorem Registered.honest : HonestSpec Registered.spec := by
  intro x hx
  simp only [Registered.spec, List.mem_cons, List.not_mem_nil, or_false] at hx
  rcases hx with rfl | rfl
  · exact fieldValidator_honest validateId_true
  · exact fieldValidator_honest validateId_true

theorem Unregister.honest : HonestSpec Unregister.spec := by
  intro x hx
  simp only [Unregister.spec, List.mem_cons, List.not_mem_nil, or_false] at hx
  rcases hx with rfl | rfl
  · exact fieldValidator_honest validateId_true
  · exact fieldValidator_honest validateId_true

theorem Unregistered.honest : HonestSpec Unregistered.spec := by
  intro x hx
  simp only [Unregistered.spec, List.mem_cons, List.not_mem_nil, or_false] at hx
  rcases hx with rfl
  · exact fieldValidator_honest validateId_true

theorem Subscribe.honest : HonestSpec Subscribe.spec := by
  intro x hx
  simp only [Subscribe.spec, List.mem_cons, List.not_mem_nil, or_false] at hx
  rcases hx with rfl | rfl | rfl
  · exact fieldValidator_honest validateId_true
  · exact fieldValidator_honest validateDict_true
  · exact fieldValidator_honest validateString_true

theorem Subscribed.honest : HonestSpec Subscribed.spec := by
  intro x hx
  simp only [Subscribed.spec, List.mem_cons, List.not_mem_nil, or_false] at hx
  rcases hx with rfl | rfl
  · exact fieldValidator_honest validateId_true
  · exact fieldValidator_honest validateId_true

theorem Unsubscribe.honest : HonestSpec Unsubscribe.spec := by
  intro x hx
  simp only [Unsubscribe.spec, List.mem_cons, List.not_mem_nil, or_false] at hx
  rcases hx with rfl | rfl
  · exact fieldValidator_honest validateId_true
  · exact fieldValidator_honest validateId_true

theorem Unsubscribed.honest : HonestSpec Unsubscribed.spec := by
  intro x hx
  simp only [Unsubscribed.spec, List.mem_cons, List.not_mem_nil, or_false] at hx
  rcases hx with rfl
  · exact fieldValidator_honest validateId_true

theorem Publish.honest : HonestSpec Publish.spec := by
  intro x hx
  simp only [Publish.spec, List.mem_cons, List.not_mem_nil, or_false] at hx
  rcases hx with rfl | rfl | rfl | rfl | rfl
  · exact fieldValidator_honest validateId_true
  · exact fieldValidator_honest validateDict_true
  · exact fieldValidator_honest validateString_true
  · exact args_honest
  · exact kwargs_honest

theorem Published.honest : HonestSpec Published.spec := by
  intro x hx
  simp only [Published.spec, List.mem_cons, List.not_mem_nil, or_false] at hx
  rcases hx with rfl | rfl
  · exact fieldValidator_honest validateId_true
  · exact fieldValidator_honest validateId_true

theorem Event.honest : HonestSpec Event.spec := by
  intro x hx
  simp only [Event.spec, List.mem_cons, List.not_mem_nil, or_false] at hx
  rcases hx with rfl | rfl | rfl | rfl | rfl
  · exact fieldValidator_honest validateId_true
  · exact fieldValidator_honest validateId_true
  · exact fieldValidator_honest validateDict_true
  · exact args_honest
  · exact kwargs_honest

theorem ErrorMsg.honest : HonestSpec ErrorMsg.spec := by
  intro x hx
  simp only [ErrorMsg.spec, List.mem_cons, List.not_mem_nil, or_false] at hx
  rcases hx with rfl | rfl | rfl | rfl | rfl | rfl
  · exact fieldValidator_honest validateInt_true
  · exact fieldValidator_honest validateId_true
  · exact fieldValidator_honest validateDict_true
  · exact fieldValidator_honest validateString_true
  · exact args_honest
  · exact kwargs_honest

theorem Cancel.honest : HonestSpec Cancel.spec := by
  intro x hx
  simp only [Cancel.spec, List.mem_cons, List.not_mem_nil, or_false] at hx
  rcases hx with rfl | rfl
  · exact fieldValidator_honest validateId_true
  · exact fieldValidator_honest validateDict_true

theorem Interrupt.honest : HonestSpec Interrupt.spec := by
  intro x hx
  simp only [Interrupt.spec, List.mem_cons, List.not_mem_nil, or_false] at hx
  rcases hx with rfl | rfl
  · exact fieldValidator_honest validateId_true
  · exact fieldValidator_honest validateDict_true

/-- What a `ValueError` of field validation says of the message is so. -/
theorem toMessage_honest {v : Value} {es : List FieldError} (h : toMessage v = .error (.invalid es)) :
    ∃ l, v = .list l ∧ ∀ e ∈ es, Truthful l e := by
  unfold toMessage index at h
  split at h
  · cases h
  · rename_i l hl
    split at h
    · rename_i e h0
      split at h0
      · cases h0
      · cases h0; cases h
    · split at h
      · cases h
      · rename_i n _
        by_cases hc : n.val = Hello.TYPE
        · rw [if_pos hc] at h
          exact parse_honest Hello.honest Hello.parse_total (fun v e h => by simp [Hello.parse, h, bind, Except.bind]) h
        rw [if_neg hc] at h; clear hc
        by_cases hc : n.val = Welcome.TYPE
        · rw [if_pos hc] at h
          exact parse_honest Welcome.honest Welcome.parse_total (fun v e h => by simp [Welcome.parse, h, bind, Except.bind]) h
        rw [if_neg hc] at h; clear hc
        by_cases hc : n.val = Abort.TYPE
        · rw [if_pos hc] at h
          exact parse_honest Abort.honest Abort.parse_total (fun v e h => by simp [Abort.parse, h, bind, Except.bind]) h
        rw [if_neg hc] at h; clear hc
        by_cases hc : n.val = Challenge.TYPE
        · rw [if_pos hc] at h
          exact parse_honest Challenge.honest Challenge.parse_total (fun v e h => by simp [Challenge.parse, h, bind, Except.bind]) h
        rw [if_neg hc] at h; clear hc
        by_cases hc : n.val = Authenticate.TYPE
        · rw [if_pos hc] at h
          exact parse_honest Authenticate.honest Authenticate.parse_total (fun v e h => by simp [Authenticate.parse, h, bind, Except.bind]) h
        rw [if_neg hc] at h; clear hc
        by_cases hc : n.val = Goodbye.TYPE
        · rw [if_pos hc] at h
          exact parse_honest Goodbye.honest Goodbye.parse_total (fun v e h => by simp [Goodbye.parse, h, bind, Except.bind]) h
        rw [if_neg hc] at h; clear hc
        by_cases hc : n.val = Call.TYPE
        · rw [if_pos hc] at h
          exact parse_honest Call.honest Call.parse_total (fun v e h => by simp [Call.parse, h, bind, Except.bind]) h
        rw [if_neg hc] at h; clear hc
        by_cases hc : n.val = Invocation.TYPE
        · rw [if_pos hc] at h
          exact parse_honest Invocation.honest Invocation.parse_total (fun v e h => by simp [Invocation.parse, h, bind, Except.bind]) h
        rw [if_neg hc] at h; clear hc
        by_cases hc : n.val = Yield.TYPE
        · rw [if_pos hc] at h
          exact parse_honest Yield.honest Yield.parse_total (fun v e h => by simp [Yield.parse, h, bind, Except.bind]) h
        rw [if_neg hc] at h; clear hc
        by_cases hc : n.val = Result.TYPE
        · rw [if_pos hc] at h
          exact parse_honest Result.honest Result.parse_total (fun v e h => by simp [Result.parse, h, bind, Except.bind]) h
        rw [if_neg hc] at h; clear hc
        by_cases hc : n.val = Register.TYPE
        · rw [if_pos hc] at h
          exact parse_honest Register.honest Register.parse_total (fun v e h => by simp [Register.parse, h, bind, Except.bind]) h
        rw [if_neg hc] at h; clear hc
        by_cases hc : n.val = Registered.TYPE
        · rw [if_pos hc] at h
          exact parse_honest Registered.honest Registered.parse_total (fun v e h => by simp [Registered.parse, h, bind, Except.bind]) h
        rw [if_neg hc] at h; clear hc
        by_cases hc : n.val = Unregister.TYPE
        · rw [if_pos hc] at h
          exact parse_honest Unregister.honest Unregister.parse_total (fun v e h => by simp [Unregister.parse, h, bind, Except.bind]) h
        rw [if_neg hc] at h; clear hc
        by_cases hc : n.val = Unregistered.TYPE
        · rw [if_pos hc] at h
          exact parse_honest Unregistered.honest Unregistered.parse_total (fun v e h => by simp [Unregistered.parse, h, bind, Except.bind]) h
        rw [if_neg hc] at h; clear hc
        by_cases hc : n.val = Subscribe.TYPE
        · rw [if_pos hc] at h
          exact parse_honest Subscribe.honest Subscribe.parse_total (fun v e h => by simp [Subscribe.parse, h, bind, Except.bind]) h
        rw [if_neg hc] at h; clear hc
        by_cases hc : n.val = Subscribed.TYPE
        · rw [if_pos hc] at h
          exact parse_honest Subscribed.honest Subscribed.parse_total (fun v e h => by simp [Subscribed.parse, h, bind, Except.bind]) h
        rw [if_neg hc] at h; clear hc
        by_cases hc : n.val = Unsubscribe.TYPE
        · rw [if_pos hc] at h
          exact parse_honest Unsubscribe.honest Unsubscribe.parse_total (fun v e h => by simp [Unsubscribe.parse, h, bind, Except.bind]) h
        rw [if_neg hc] at h; clear hc
        by_cases hc : n.val = Unsubscribed.TYPE
        · rw [if_pos hc] at h
          exact parse_honest Unsubscribed.honest Unsubscribed.parse_total (fun v e h => by simp [Unsubscribed.parse, h, bind, Except.bind]) h
        rw [if_neg hc] at h; clear hc
        by_cases hc : n.val = Publish.TYPE
        · rw [if_pos hc] at h
          exact parse_honest Publish.honest Publish.parse_total (fun v e h => by simp [Publish.parse, h, bind, Except.bind]) h
        rw [if_neg hc] at h; clear hc
        by_cases hc : n.val = Published.TYPE
        · rw [if_pos hc] at h
          exact parse_honest Published.honest Published.parse_total (fun v e h => by simp [Published.parse, h, bind, Except.bind]) h
        rw [if_neg hc] at h; clear hc
        by_cases hc : n.val = Event.TYPE
        · rw [if_pos hc] at h
          exact parse_honest Event.honest Event.parse_total (fun v e h => by simp [Event.parse, h, bind, Except.bind]) h
        rw [if_neg hc] at h; clear hc
        by_cases hc : n.val = ErrorMsg.TYPE
        · rw [if_pos hc] at h
          exact parse_honest ErrorMsg.honest ErrorMsg.parse_total (fun v e h => by simp [ErrorMsg.parse, h, bind, Except.bind]) h
        rw [if_neg hc] at h; clear hc
        by_cases hc : n.val = Cancel.TYPE
        · rw [if_pos hc] at h
          exact parse_honest Cancel.honest Cancel.parse_total (fun v e h => by simp [Cancel.parse, h, bind, Except.bind]) h
        rw [if_neg hc] at h; clear hc
        by_cases hc : n.val = Interrupt.TYPE
        · rw [if_pos hc] at h
          exact parse_honest Interrupt.honest Interrupt.parse_total (fun v e h => by simp [Interrupt.parse, h, bind, Except.bind]) h
        rw [if_neg hc] at h; clear hc
        cases h

end Wamp
