import Verif.Proofs.WireLemmas

/-! What `Hello.parse` and `Welcome.parse` accept and return. -/

namespace Wamp

/-- An optional entry as `d.get(key)` shows it: absent and `None` are the same. -/
def optVal {α : Type} (wrap : α → Value) (o : Option α) : Value :=
  match o with
  | none => .none
  | some a => wrap a

theorem detailEntry_ok {α : Type} {as? : Value → Option α} {wrap : α → Value}
    (hw : ∀ v a, as? v = some a ↔ v = wrap a) (hn : ∀ a, wrap a ≠ .none)
    {key expected : String} {store : Fields → Option α → Fields} {d i f name f'} :
    detailEntry as? key expected store d i f name = (f', []) ↔
      ∃ o, PyDict.getD d key = optVal wrap o ∧ f' = store f o := by
  unfold detailEntry
  split
  · rename_i h
    rw [h]; simp only [Prod.mk.injEq, and_true]
    constructor
    · rintro rfl; exact ⟨none, rfl, rfl⟩
    · rintro ⟨o, ho, rfl⟩
      cases o with
      | none => rfl
      | some a => exact absurd ho.symm (hn a)
  · rename_i h
    cases ha : as? (PyDict.getD d key) with
    | none =>
      simp only [Prod.mk.injEq, List.cons_ne_nil, and_false, false_iff, not_exists, not_and]
      intro o ho
      cases o with
      | none => exact absurd ho h
      | some a => rw [(hw _ _).2 ho] at ha; cases ha
    | some a =>
      simp only [Prod.mk.injEq, and_true]
      have := (hw _ _).1 ha
      constructor
      · rintro rfl; exact ⟨some a, this, rfl⟩
      · rintro ⟨o, ho, rfl⟩
        cases o with
        | none => exact absurd ho h
        | some b => rw [(hw _ _).2 ho] at ha; cases ha; rfl

/-- Every key is one of the allowed role names. -/
def RolesAllowed (r : PyDict) : Prop := ∀ kv ∈ r, ∃ s ∈ allowedRoles, kv.1 = .str s

theorem firstBadRole_none {r : PyDict} : firstBadRole r = none ↔ RolesAllowed r := by
  unfold RolesAllowed
  induction r with
  | nil => simp [firstBadRole]
  | cons kv rest ih =>
    obtain ⟨k, v⟩ := kv
    simp only [firstBadRole, List.mem_cons, forall_eq_or_imp]
    by_cases h : roleAllowed k = true
    · rw [if_pos h, ih]
      constructor
      · intro h'; refine ⟨?_, h'⟩
        cases k <;> simp [roleAllowed] at h
        exact ⟨_, h, rfl⟩
      · exact fun h => h.2
    · rw [if_neg h]; simp only [reduceCtorEq, false_iff, not_and]
      rintro ⟨s, hs, rfl⟩; simp [roleAllowed] at h; exact absurd hs h

theorem validateRoles_ok {d i f name f'} : validateRoles d i f name = (f', []) ↔
    ∃ r, PyDict.getD d "roles" = .dict r ∧ r ≠ [] ∧ RolesAllowed r ∧ f' = { f with roles := some r } := by
  unfold validateRoles
  generalize PyDict.getD d "roles" = roles
  cases roles <;> simp only [Value.asDict?, reduceCtorEq, Prod.mk.injEq, List.cons_ne_nil, and_false,
    false_and, exists_false, Value.dict.injEq]
  rename_i r
  by_cases hr : r = []
  · subst hr; simp
  · have : ¬ r.length = 0 := by simpa using hr
    rw [if_neg this]
    cases h : firstBadRole r with
    | none =>
      simp only [Prod.mk.injEq, and_true]
      exact ⟨fun e => ⟨r, rfl, hr, firstBadRole_none.1 h, e.symm⟩, by rintro ⟨r', rfl, -, -, rfl⟩; rfl⟩
    | some b =>
      simp only [Prod.mk.injEq, List.cons_ne_nil, and_false, false_iff]
      rintro ⟨r', rfl, -, h', -⟩
      rw [firstBadRole_none.2 h'] at h; cases h

theorem seqDetails_cons_ok {v : PyDict → Nat → Fields → String → Fields × List FieldError}
    {vs d i f name f'} : seqDetails (v :: vs) d i f name = (f', []) ↔
      ∃ f1, v d i f name = (f1, []) ∧ seqDetails vs d i f1 name = (f', []) := by
  simp only [seqDetails]
  cases h1 : v d i f name with
  | mk f1 e1 =>
    cases h2 : seqDetails vs d i f1 name with
    | mk f2 e2 =>
      simp only [Prod.mk.injEq, List.append_eq_nil_iff]
      constructor
      · rintro ⟨rfl, rfl, rfl⟩; exact ⟨f1, ⟨rfl, rfl⟩, h2⟩
      · rintro ⟨x, ⟨rfl, rfl⟩, h⟩; rw [h2] at h; cases h; exact ⟨rfl, rfl, rfl⟩

theorem seqDetails_nil_ok {d i f name f'} : seqDetails [] d i f name = (f', []) ↔ f' = f := by
  simp [seqDetails, eq_comm]

theorem detailsValidator_ok {vs msg i f name f'} : detailsValidator vs msg i f name = .ok (f', []) ↔
    ∃ d f1, msg[i]? = some (.dict d) ∧ seqDetails vs d i f name = (f1, []) ∧
      f' = { f1 with details := some d } := by
  unfold detailsValidator index
  cases msg[i]? with
  | none => simp
  | some v =>
    cases v <;> simp only [validateDict, Value.asDict?, Option.some.injEq, reduceCtorEq, false_and, exists_false,
      Except.ok.injEq, Prod.mk.injEq, List.cons_ne_nil, and_false, Value.dict.injEq]
    rename_i d
    cases h : seqDetails vs d i f name with
    | mk f1 es =>
      simp only
      cases es with
      | nil =>
        simp only [List.length_nil, Nat.lt_irrefl, gt_iff_lt, if_false, Except.ok.injEq, Prod.mk.injEq, and_true]
        constructor
        · rintro rfl; exact ⟨d, f1, rfl, h, rfl⟩
        · rintro ⟨d', f2, rfl, h', rfl⟩; rw [h] at h'; cases h'; rfl
      | cons e es =>
        simp only [List.length_cons, gt_iff_lt, Nat.zero_lt_succ, if_true, Except.ok.injEq, Prod.mk.injEq,
          List.cons_ne_nil, and_false, false_iff]
        rintro ⟨d', f2, rfl, h', rfl⟩; rw [h] at h'; cases h'

theorem str_wrap (v : Value) (a : String) : v.asStr? = some a ↔ v = .str a := asStr?_eq_some
theorem list_wrap (v : Value) (a : List Value) : v.asList? = some a ↔ v = .list a := asList?_eq_some
theorem dict_wrap (v : Value) (a : PyDict) : v.asDict? = some a ↔ v = .dict a := asDict?_eq_some

theorem Hello.parse_ok (v : Value) (m : Hello) : Hello.parse v = .ok m ↔
    ∃ t d, ∃ authrole : Option String, v = .list [t, .str m.realm, .dict d] ∧ t.eqInt Hello.TYPE = true ∧
      PyDict.getD d "roles" = .dict m.roles ∧ m.roles ≠ [] ∧ RolesAllowed m.roles ∧
      PyDict.getD d "authid" = optVal .str m.authid ∧
      PyDict.getD d "authrole" = optVal .str authrole ∧
      PyDict.getD d "authmethods" = optVal .list m.authmethods ∧
      PyDict.getD d "authextra" = optVal .dict m.authextra := by
  unfold Hello.parse Hello.spec
  simp only [except_bind_ok, except_pure_ok, need_ok, validateMessage_ok, runSpec_cons_ok, runSpec_nil_ok,
    fieldValidator_ok, validateRealm, validateString_ok, validateHelloDetails, detailsValidator_ok,
    seqDetails_cons_ok, seqDetails_nil_ok, validateAuthid, validateAuthrole, validateAuthmethods, validateAuthextra,
    validateRoles_ok, detailEntry_ok str_wrap (fun _ => Value.noConfusion),
    detailEntry_ok list_wrap (fun _ => Value.noConfusion), detailEntry_ok dict_wrap (fun _ => Value.noConfusion)]
  constructor
  · rintro ⟨f, ⟨msg, rfl, h1, h2, ⟨t, ht, ht'⟩, _, ⟨_, realm, hr, rfl, rfl⟩, _,
      ⟨d, _, hd, ⟨_, ⟨authid, haid, rfl⟩, _, ⟨authrole, har, rfl⟩, _, ⟨am, ham, rfl⟩, _, ⟨r, hro, hro1, hro2, rfl⟩,
        _, ⟨ae, hae, rfl⟩, rfl⟩, rfl⟩, rfl⟩, hm⟩
    rcases msg with _ | ⟨y0, _ | ⟨y1, _ | ⟨y2, _ | ⟨z, zs⟩⟩⟩⟩
    all_goals simp at h1 h2 ht hr hd
    subst ht hr hd
    simp at hm; subst hm
    exact ⟨_, _, authrole, rfl, ht', hro, hro1, hro2, haid, har, ham, hae⟩
  · rintro ⟨t, d, authrole, rfl, ht', hro, hro1, hro2, haid, har, ham, hae⟩
    exact ⟨_, ⟨_, rfl, by simp, by simp, ⟨t, rfl, ht'⟩, _, ⟨_, _, rfl, rfl, rfl⟩, _,
      ⟨d, _, rfl, ⟨_, ⟨_, haid, rfl⟩, _, ⟨_, har, rfl⟩, _, ⟨_, ham, rfl⟩, _, ⟨_, hro, hro1, hro2, rfl⟩,
        _, ⟨_, hae, rfl⟩, rfl⟩, rfl⟩, rfl⟩, _, rfl, _, rfl, rfl⟩

theorem Welcome.parse_ok (v : Value) (m : Welcome) : Welcome.parse v = .ok m ↔
    ∃ t d, ∃ authextra : Option PyDict, v = .list [t, m.sessionId.toValue, .dict d] ∧
      t.eqInt Welcome.TYPE = true ∧ ValidId m.sessionId ∧
      PyDict.getD d "roles" = .dict m.roles ∧ m.roles ≠ [] ∧ RolesAllowed m.roles ∧
      PyDict.getD d "authid" = optVal .str m.authid ∧
      PyDict.getD d "authrole" = optVal .str m.authrole ∧
      PyDict.getD d "authmethod" = optVal .str m.authmethod ∧
      PyDict.getD d "authextra" = optVal .dict authextra ∧ m.authextra = authextra.getD [] := by
  unfold Welcome.parse Welcome.spec
  simp only [except_bind_ok, except_pure_ok, need_ok, validateMessage_ok, runSpec_cons_ok, runSpec_nil_ok,
    fieldValidator_ok, validateSessionId, validateId_ok, validateWelcomeDetails, detailsValidator_ok,
    seqDetails_cons_ok, seqDetails_nil_ok, validateAuthid, validateAuthrole, validateWelcomeAuthmethod, validateAuthextra,
    validateRoles_ok, detailEntry_ok str_wrap (fun _ => Value.noConfusion),
    detailEntry_ok list_wrap (fun _ => Value.noConfusion), detailEntry_ok dict_wrap (fun _ => Value.noConfusion)]
  constructor
  · rintro ⟨f, ⟨msg, rfl, h1, h2, ⟨t, ht, ht'⟩, _, ⟨_, sid, hr, ⟨rfl, hv⟩, rfl⟩, _,
      ⟨d, _, hd, ⟨_, ⟨r, hro, hro1, hro2, rfl⟩, _, ⟨authid, haid, rfl⟩, _, ⟨authrole, har, rfl⟩, 
        _, ⟨ae, hae, rfl⟩, _, ⟨am, ham, rfl⟩, rfl⟩, rfl⟩, rfl⟩, hm⟩
    rcases msg with _ | ⟨y0, _ | ⟨y1, _ | ⟨y2, _ | ⟨z, zs⟩⟩⟩⟩
    all_goals simp at h1 h2 ht hr hd
    subst ht hr hd
    simp at hm; subst hm
    exact ⟨_, _, ae, rfl, ht', hv, hro, hro1, hro2, haid, har, ham, hae, rfl⟩
  · rintro ⟨t, d, ae, rfl, ht', hv, hro, hro1, hro2, haid, har, ham, hae, hae'⟩
    exact ⟨_, ⟨_, rfl, by simp, by simp, ⟨t, rfl, ht'⟩, _, ⟨_, _, rfl, ⟨rfl, hv⟩, rfl⟩, _,
      ⟨d, _, rfl, ⟨_, ⟨_, hro, hro1, hro2, rfl⟩, _, ⟨_, haid, rfl⟩, _, ⟨_, har, rfl⟩, _, ⟨_, hae, rfl⟩,
        _, ⟨_, ham, rfl⟩, rfl⟩, rfl⟩, rfl⟩, _, rfl, _, rfl, by simp [← hae']⟩

end Wamp
