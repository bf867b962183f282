import Verif.Model.Dealer
import Verif.Proofs.DictLemmas

/-! # Dealer invariant: registrations -/

namespace Wamp.Dealer

/-- `{s: s}` -/
abbrev one (s : Int) : Dict Int Int := Dict.empty.set s s

theorem one_del (s : Int) : (one s).del s = .empty := by simp [one, Dict.del, Dict.set, Dict.empty, Dict.setL]
theorem one_contains (s : Int) : (one s).contains s = true := by simp [Dict.contains]
theorem one_inj {s s' : Int} (h : one s = one s') : s = s' := by
  simp only [one, Dict.set, Dict.empty, Dict.setL, Dict.mk.injEq, List.cons.injEq, Prod.mk.injEq] at h; exact h.1.1
theorem first_one (i : Int) (p : String) (s : Int) : firstRegistrant ⟨i, p, one s⟩ = s := rfl
theorem first_of {o : Registration} {s : Int} (h : o.registrants = one s) : firstRegistrant o = s := by
  cases o; simp only at h; subst h; rfl

/-- The data structure invariant of the dealer's registrations, kept by every call. -/
structure Wf (b : Dealer) : Prop where
  proc : ∀ p r, b.registrationsByProcedure.get p = some r →
    (b.heap r).procedure = p ∧ (∃ s, (b.heap r).registrants = one s) ∧ r < b.nextRef
  ses : ∀ s d, b.registrationsBySession.get s = some d → d.Wf ∧ ∀ i r, d.get i = some r →
    (b.heap r).id = i ∧ (b.heap r).registrants = one s ∧ b.registrationsByProcedure.get (b.heap r).procedure = some r
  reg : ∀ s, b.sessions.contains s = b.registrationsBySession.contains s

theorem wf_init : Wf init := by
  refine ⟨?_, ?_, ?_⟩
  · intro t r h; simp [init] at h
  · intro t r h; simp [init] at h
  · intro s; rfl

/-- The parts of the state concerned with calls in progress. -/
def SameCalls (b b' : Dealer) : Prop :=
  b'.pendingCalls = b.pendingCalls ∧ b'.callToInvocationId = b.callToInvocationId ∧ b'.idgen = b.idgen

/-- The object emptied and taken out of the index. -/
def drop (b : Dealer) (r : Ref) : Dealer :=
  { b.write r ⟨(b.heap r).id, (b.heap r).procedure, .empty⟩ with
    registrationsByProcedure := b.registrationsByProcedure.del (b.heap r).procedure }

theorem removeLoop_cons (b : Dealer) (s : Int) (i : Int) (r : Ref) (rest : List (Int × Ref))
    (h1 : b.registrationsByProcedure.get (b.heap r).procedure = some r) (h2 : (b.heap r).registrants = one s) :
    b.removeLoop s ((i, r) :: rest) = (b.drop r).removeLoop s rest := by
  have h4 : b.registrationsByProcedure.contains (b.heap r).procedure = true := Dict.contains_iff_get.2 ⟨_, h1⟩
  have h5 : (Dict.empty : Dict Int Int).size = 0 := rfl
  simp only [removeLoop, h1, h2, one_contains, if_true, one_del, h5, true_and]
  rw [if_neg (by simp [write, h4])]
  rfl

/-- What the removal loop does, in closed form. -/
theorem removeLoop_ok (s : Int) (l : List (Int × Ref)) : ∀ (b : Dealer),
    (∀ p ∈ l, b.registrationsByProcedure.get (b.heap p.2).procedure = some p.2 ∧ (b.heap p.2).registrants = one s) →
    (l.map (·.2)).Nodup →
    ∃ b', b.removeLoop s l = (b', .ok ()) ∧ b'.registrationsBySession = b.registrationsBySession ∧
      b'.sessions = b.sessions ∧ SameCalls b b' ∧ b'.nextRef = b.nextRef ∧
      (∀ r, r ∉ l.map (·.2) → b'.heap r = b.heap r) ∧
      (∀ t r, (b.heap r).procedure = t → (b'.registrationsByProcedure.get t = some r ↔
        b.registrationsByProcedure.get t = some r ∧ r ∉ l.map (·.2))) ∧
      (∀ t r, b'.registrationsByProcedure.get t = some r → b.registrationsByProcedure.get t = some r) := by
  induction l with
  | nil => intro b _ _; exact ⟨b, rfl, rfl, rfl, ⟨rfl, rfl, rfl⟩, rfl, by simp, by simp, by simp⟩
  | cons p rest ih =>
    intro b hl hnd
    obtain ⟨i, r⟩ := p
    obtain ⟨h1, h2⟩ := hl (i, r) (by simp)
    simp only at h1 h2
    simp only [List.map_cons, List.nodup_cons] at hnd
    rw [removeLoop_cons b s i r rest h1 h2]
    have hne : ∀ p ∈ rest, p.2 ≠ r := by rintro p hp rfl; exact hnd.1 (List.mem_map.2 ⟨p, hp, rfl⟩)
    have hheap : ∀ r', r' ≠ r → (b.drop r).heap r' = b.heap r' := by
      intro r' h; simp only [drop, write, if_neg h]
    have hproc : ∀ t, (b.drop r).registrationsByProcedure.get t =
        if (b.heap r).procedure = t then none else b.registrationsByProcedure.get t := by
      intro t; simp only [drop, Dict.get_del]
    have hprocEq : ((b.drop r).heap r).procedure = (b.heap r).procedure := by simp [drop, write]
    obtain ⟨b', k1, k2, k3, k4, k5, k6, k7, k8⟩ := ih (b.drop r) (by
      intro p hp
      have hp' := hl p (List.mem_cons_of_mem _ hp)
      rw [hheap _ (hne p hp), hproc]
      refine ⟨?_, hp'.2⟩
      rw [if_neg]
      · exact hp'.1
      · intro ht
        rw [ht, hp'.1] at h1
        exact hne p hp (by simpa using h1)) hnd.2
    refine ⟨b', k1, k2, k3, k4, k5, ?_, ?_, ?_⟩
    · intro r' hr
      simp only [List.map_cons, List.mem_cons, not_or] at hr
      rw [k6 r' hr.2, hheap _ hr.1]
    · intro t r' ht
      by_cases hr : r' = r
      · subst hr
        rw [k7 t r' (by rw [hprocEq]; exact ht), hproc, if_pos ht]; simp
      · rw [k7 t r' (by rw [hheap _ hr]; exact ht), hproc]
        simp only [List.map_cons, List.mem_cons, hr, false_or]
        split
        · rename_i h
          simp only [reduceCtorEq, false_and, false_iff]
          rintro ⟨h5, -⟩
          rw [← h, h1] at h5
          exact hr (by simpa using h5.symm)
        · rfl
    · intro t r' h
      have := k8 t r' h
      rw [hproc] at this
      split at this
      · cases this
      · exact this

/-- Removing a known session, in closed form. -/
theorem removeSession_ok (b : Dealer) (hb : b.Wf) (s : Int) (d : Dict Int Ref)
    (hs : b.registrationsBySession.get s = some d) :
    ∃ b', b.removeSession s = (b', .ok ()) ∧ b'.registrationsBySession = b.registrationsBySession.del s ∧
      b'.sessions = b.sessions.del s ∧ SameCalls b b' ∧ b'.nextRef = b.nextRef ∧
      (∀ r, ¬ (∃ i, d.get i = some r) → b'.heap r = b.heap r) ∧
      (∀ t r, b'.registrationsByProcedure.get t = some r ↔
        b.registrationsByProcedure.get t = some r ∧ ¬ (∃ i, d.get i = some r)) := by
  obtain ⟨hd, hi⟩ := hb.ses s d hs
  have hmem : ∀ r, r ∈ d.items.map (·.2) ↔ ∃ i, d.get i = some r := by
    intro r
    simp only [List.mem_map]
    constructor
    · rintro ⟨⟨i, r'⟩, h, rfl⟩; exact ⟨i, hd.mem_items.1 h⟩
    · rintro ⟨i, h⟩; exact ⟨(i, r), hd.mem_items.2 h, rfl⟩
  obtain ⟨b', k1, k2, k3, k4, k5, k6, k7, k8⟩ := removeLoop_ok s d.items
    { b with registrationsBySession := b.registrationsBySession.del s }
    (by
      rintro ⟨i, r⟩ hp
      obtain ⟨-, h2, h3⟩ := hi i r (hd.mem_items.1 hp)
      exact ⟨h3, h2⟩)
    (by
      have : d.items.map (fun p => (b.heap p.2).id) = d.keys := by
        apply List.map_congr_left
        rintro ⟨i, r⟩ hp
        exact (hi i r (hd.mem_items.1 hp)).1
      have h : (d.items.map (fun p => (b.heap p.2).id)).Nodup := this ▸ hd
      rw [List.Nodup, List.pairwise_map] at h ⊢
      exact h.imp (by intro p q h e; exact h (by rw [e])))
  refine ⟨{ b' with sessions := b'.sessions.del s }, ?_, k2, by rw [k3], k4, k5, ?_, ?_⟩
  · have : b'.sessions.contains s = true := by
      rw [k3]; simp only; rw [hb.reg, Dict.contains_iff_get]; exact ⟨d, hs⟩
    simp only [removeSession, hs, k1, this, if_true]
  · intro r hr; exact k6 r (fun h => hr ((hmem r).1 h))
  · intro t r
    simp only
    constructor
    · intro h
      have h1 := k8 t r h
      have h2 := (k7 t r (hb.proc t r h1).1).1 h
      exact ⟨h1, fun h => h2.2 ((hmem r).2 h)⟩
    · rintro ⟨h1, h2⟩; exact (k7 t r (hb.proc t r h1).1).2 ⟨h1, fun h => h2 ((hmem r).1 h)⟩

theorem wf_removeSession (b : Dealer) (hb : b.Wf) (s : Int) (d : Dict Int Ref)
    (hs : b.registrationsBySession.get s = some d) : (b.removeSession s).1.Wf := by
  obtain ⟨b', k1, k2, k3, k4, k5, k6, k7⟩ := removeSession_ok b hb s d hs
  have hds := hb.ses s d hs
  rw [k1]; simp only
  refine ⟨?_, ?_, ?_⟩
  · intro t r h
    rw [k7] at h
    obtain ⟨h1, h2⟩ := h
    rw [k5, k6 r h2]
    exact hb.proc t r h1
  · intro s' d' h
    rw [k2, Dict.get_del] at h
    split at h
    · cases h
    · rename_i hne
      obtain ⟨hd, hi⟩ := hb.ses s' d' h
      refine ⟨hd, fun i r hr => ?_⟩
      obtain ⟨h1, h2, h3⟩ := hi i r hr
      have hr' : ¬ ∃ i, d.get i = some r := by
        rintro ⟨j, hj⟩
        have := (hds.2 j r hj).2.1
        rw [h2] at this; exact hne (one_inj this).symm
      rw [k6 r hr']
      exact ⟨h1, h2, (k7 _ _).2 ⟨h3, hr'⟩⟩
  · intro s'
    have := hb.reg s'
    rw [k2, k3]
    simp only [Dict.contains, Dict.get_del]
    split
    · rfl
    · exact this

/-! ## Register and unregister -/

theorem register_new (b : Dealer) (s : Int) (m : Register) (d : Dict Int Ref)
    (hs : b.registrationsBySession.get s = some d) (ht : b.registrationsByProcedure.get m.procedure = none) :
    b.receiveRegister s m =
      ({ heap := fun r => if r = b.nextRef then ⟨b.idgen.next.2, m.procedure, one s⟩ else b.heap r
         nextRef := b.nextRef + 1
         registrationsByProcedure := b.registrationsByProcedure.set m.procedure b.nextRef
         registrationsBySession := b.registrationsBySession.set s (d.set b.idgen.next.2 b.nextRef)
         pendingCalls := b.pendingCalls
         callToInvocationId := b.callToInvocationId
         sessions := b.sessions
         idgen := b.idgen.next.1 }, .ok ⟨.registered ⟨m.requestId, .int b.idgen.next.2⟩, s⟩) := by
  simp only [receiveRegister, hs, ht, alloc]

theorem register_taken (b : Dealer) (s : Int) (m : Register) (d : Dict Int Ref) (r : Ref)
    (hs : b.registrationsBySession.get s = some d) (ht : b.registrationsByProcedure.get m.procedure = some r) :
    b.receiveRegister s m = (b, .ok ⟨.error ⟨.int Register.TYPE, m.requestId, "wamp.error.procedure_already_exists",
      none, none, []⟩, s⟩) := by
  simp only [receiveRegister, hs, ht]

theorem wf_register_new (b : Dealer) (hb : b.Wf) (s : Int) (m : Register) (d : Dict Int Ref)
    (hs : b.registrationsBySession.get s = some d) (ht : b.registrationsByProcedure.get m.procedure = none) :
    (b.receiveRegister s m).1.Wf := by
  have hlt : ∀ t r, b.registrationsByProcedure.get t = some r → r ≠ b.nextRef := by
    intro t r h e; have := (hb.proc t r h).2.2; rw [e] at this; exact Nat.lt_irrefl _ this
  rw [register_new b s m d hs ht]
  simp only
  refine ⟨?_, ?_, ?_⟩
  · intro t r h
    simp only [Dict.get_set] at h ⊢
    split at h
    · rename_i e; cases h; simp only [if_true]; exact ⟨e, ⟨s, rfl⟩, Nat.lt_succ_self _⟩
    · have := hb.proc t r h
      simp only [if_neg (hlt t r h)]
      exact ⟨this.1, this.2.1, Nat.lt_succ_of_lt this.2.2⟩
  · have old : ∀ s' d', b.registrationsBySession.get s' = some d' → ∀ i r, d'.get i = some r →
      (if r = b.nextRef then (⟨b.idgen.next.2, m.procedure, one s⟩ : Registration) else b.heap r) = b.heap r ∧
      (b.registrationsByProcedure.set m.procedure b.nextRef).get (b.heap r).procedure = some r := by
      intro s' d' h i r hr
      obtain ⟨h1, h2, h3⟩ := (hb.ses s' d' h).2 i r hr
      refine ⟨if_neg (hlt _ _ h3), ?_⟩
      rw [Dict.get_set, if_neg, h3]
      intro e; rw [← e, ht] at h3; cases h3
    intro s' d' h
    simp only [Dict.get_set] at h
    split at h
    · rename_i e; subst e; cases h
      refine ⟨(hb.ses _ d hs).1.set _ _, ?_⟩
      intro i r hr
      simp only [Dict.get_set] at hr ⊢
      split at hr
      · rename_i e; cases hr; simp only [if_true]; exact ⟨e, trivial, trivial⟩
      · obtain ⟨o1, o2⟩ := old _ d hs i r hr
        obtain ⟨h1, h2, h3⟩ := (hb.ses _ d hs).2 i r hr
        rw [o1]; simp only [Dict.get_set] at o2; exact ⟨h1, h2, o2⟩
    · refine ⟨(hb.ses s' d' h).1, ?_⟩
      intro i r hr
      obtain ⟨o1, o2⟩ := old s' d' h i r hr
      obtain ⟨h1, h2, h3⟩ := (hb.ses s' d' h).2 i r hr
      simp only [o1]; exact ⟨h1, h2, o2⟩
  · intro s'
    have := hb.reg s'
    simp only [Dict.contains, Dict.get_set] at this ⊢
    split
    · rename_i e; subst e; rw [this, hs]; rfl
    · exact this

theorem unregister_ok (b : Dealer) (hb : b.Wf) (s : Int) (m : Unregister) (d : Dict Int Ref) (r : Ref)
    (hs : b.registrationsBySession.get s = some d) (hr : d.get m.registrationId.val = some r) :
    b.receiveUnregister s m =
      ({ b.drop r with registrationsBySession := b.registrationsBySession.set s (d.del m.registrationId.val) },
        .ok ⟨.unregistered ⟨m.requestId⟩, s⟩) := by
  obtain ⟨h1, h2, h3⟩ := (hb.ses s d hs).2 _ _ hr
  have h4 : b.registrationsByProcedure.contains (b.heap r).procedure = true := Dict.contains_iff_get.2 ⟨_, h3⟩
  have h5 : (Dict.empty : Dict Int Int).size = 0 := rfl
  simp only [receiveUnregister, hs, hr, h2, one_contains, if_true, one_del, h5, write, h4]
  rfl

theorem drop_proc (b : Dealer) (hb : b.Wf) {p : String} {r : Ref} (h : b.registrationsByProcedure.get p = some r) (t : String) (r' : Ref) :
    (b.drop r).registrationsByProcedure.get t = some r' ↔ b.registrationsByProcedure.get t = some r' ∧ r' ≠ r := by
  have hp := (hb.proc _ _ h).1
  simp only [drop, Dict.get_del]
  split
  · rename_i e
    simp only [reduceCtorEq, false_iff]
    rintro ⟨h1, h2⟩
    rw [← e, hp, h] at h1; cases h1; exact h2 rfl
  · rename_i e
    constructor
    · intro h1; refine ⟨h1, ?_⟩; rintro rfl; exact e (hb.proc _ _ h1).1
    · exact fun h => h.1

theorem wf_unregister (b : Dealer) (hb : b.Wf) (s : Int) (m : Unregister) (d : Dict Int Ref) (r : Ref)
    (hs : b.registrationsBySession.get s = some d) (hr : d.get m.registrationId.val = some r) :
    (b.receiveUnregister s m).1.Wf := by
  obtain ⟨h1, h2, h3⟩ := (hb.ses s d hs).2 _ _ hr
  have hheap : ∀ r', r' ≠ r → (b.drop r).heap r' = b.heap r' := by
    intro r' h; simp only [drop, write, if_neg h]
  have hdp := drop_proc b hb h3
  rw [unregister_ok b hb s m d r hs hr]
  simp only
  refine ⟨?_, ?_, ?_⟩
  · intro t r' h
    simp only at h ⊢
    obtain ⟨h4, h5⟩ := (hdp t r').1 h
    rw [hheap r' h5]; exact hb.proc t r' h4
  · intro s' d' h
    simp only [Dict.get_set] at h
    have main : ∀ s' d', b.registrationsBySession.get s' = some d' → ∀ i r', d'.get i = some r' → r' ≠ r →
        ((b.drop r).heap r').id = i ∧ ((b.drop r).heap r').registrants = one s' ∧
        (b.drop r).registrationsByProcedure.get ((b.drop r).heap r').procedure = some r' := by
      intro s' d' h i r' hr' hne
      rw [hheap r' hne]
      obtain ⟨k1, k2, k3⟩ := (hb.ses s' d' h).2 i r' hr'
      exact ⟨k1, k2, (hdp _ _).2 ⟨k3, hne⟩⟩
    split at h
    · rename_i e; subst e; cases h
      refine ⟨(hb.ses _ d hs).1.del _, ?_⟩
      intro i r' hr'
      simp only [Dict.get_del] at hr'
      split at hr'
      · cases hr'
      · rename_i hne
        refine main _ d hs i r' hr' ?_
        rintro rfl
        exact hne (h1.symm.trans ((hb.ses _ d hs).2 _ _ hr').1)
    · rename_i hne
      refine ⟨(hb.ses s' d' h).1, ?_⟩
      intro i r' hr'
      refine main s' d' h i r' hr' ?_
      rintro rfl
      have := ((hb.ses s' d' h).2 i _ hr').2.1
      rw [h2] at this; exact hne (one_inj this)
  · intro s'
    have := hb.reg s'
    simp only [Dict.contains, Dict.get_set] at this ⊢
    simp only [drop, write]
    split
    · rename_i e; subst e; rw [this, hs]; rfl
    · exact this

/-- Calls change nothing about registrations. -/
theorem wf_of_same {b b' : Dealer} (hb : b.Wf) (h1 : b'.heap = b.heap) (h2 : b'.nextRef = b.nextRef)
    (h3 : b'.registrationsByProcedure = b.registrationsByProcedure) (h4 : b'.registrationsBySession = b.registrationsBySession)
    (h5 : b'.sessions = b.sessions) : b'.Wf := by
  refine ⟨?_, ?_, ?_⟩
  · rw [h1, h2, h3]; exact hb.proc
  · rw [h1, h3, h4]; exact hb.ses
  · rw [h4, h5]; exact hb.reg

/-- Every call keeps the invariant; a call that raises something other than the `KeyError` of a YIELD raises `ValueError`
and leaves the dealer unchanged. -/
theorem step_spec (b : Dealer) (hb : b.Wf) (op : Op) :
    (b.step op).1.Wf ∧
    ((∃ out, (b.step op).2 = .ok out) ∨ (∃ msg, b.step op = (b, .error (.valueError msg))) ∨
     (∃ s y p, op = .receiveMessage s (.yield_ y) ∧ b.pendingCalls.get y.requestId.val = some p ∧ s = p.calleeId ∧
       b.callToInvocationId.get (p.callerId, p.requestId.val) = none ∧ (b.step op).2 = .error .keyError)) := by
  cases op with
  | addSession dt =>
    simp only [step, addSession]
    split
    · exact ⟨hb, .inr (.inl ⟨_, rfl⟩)⟩
    · rename_i hc
      refine ⟨⟨?_, ?_, ?_⟩, .inl ⟨.unit, rfl⟩⟩
      · exact hb.proc
      · intro s d h
        simp only [Dict.get_set] at h
        split at h
        · cases h; exact ⟨Dict.wf_empty, by intro i r h; simp at h⟩
        · exact hb.ses s d h
      · intro s
        have := hb.reg s
        simp only [Dict.contains, Dict.get_set] at this ⊢
        split
        · rfl
        · exact this
  | removeSession s =>
    cases hs : b.registrationsBySession.get s with
    | none => simp only [step, removeSession, hs]; exact ⟨hb, .inr (.inl ⟨_, rfl⟩)⟩
    | some d =>
      have hw := wf_removeSession b hb s d hs
      obtain ⟨b', k1, -⟩ := removeSession_ok b hb s d hs
      refine ⟨by simpa only [step] using hw, .inl ⟨.unit, by simp only [step, k1]; rfl⟩⟩
  | hasRegistration t => exact ⟨hb, .inl ⟨_, rfl⟩⟩
  | receiveMessage s m =>
    cases m with
    | call m =>
      simp only [step, receiveMessage, receiveCall]
      split
      · exact ⟨hb, .inl ⟨_, rfl⟩⟩
      · refine ⟨?_, .inl ⟨_, rfl⟩⟩
        simp only
        split
        · split
          · exact hb
          · exact wf_of_same hb rfl rfl rfl rfl rfl
        · exact wf_of_same hb rfl rfl rfl rfl rfl
    | yield_ m =>
      cases hp : b.pendingCalls.get m.requestId.val with
      | none => simp only [step, receiveMessage, receiveYield, hp]; exact ⟨hb, .inr (.inl ⟨_, rfl⟩)⟩
      | some p =>
        by_cases hs : s = p.calleeId
        · cases hpr : (((PyDict.get? m.options OPTION_PROGRESS).getD (.bool false)).truthy && p.receiveProgress.truthy)
          · cases hc : b.callToInvocationId.get (p.callerId, p.requestId.val) with
            | none =>
              have hc' : b.callToInvocationId.contains (p.callerId, p.requestId.val) = false := Dict.not_contains_iff_get.2 hc
              simp only [step, receiveMessage, receiveYield, hp, hs, ne_eq, not_true_eq_false, if_false, hpr, hc', Bool.false_eq_true]
              exact ⟨wf_of_same hb rfl rfl rfl rfl rfl, .inr (.inr ⟨_, m, p, rfl, hp, rfl, hc, rfl⟩)⟩
            | some i =>
              have hc' : b.callToInvocationId.contains (p.callerId, p.requestId.val) = true := Dict.contains_iff_get.2 ⟨_, hc⟩
              simp only [step, receiveMessage, receiveYield, hp, hs, ne_eq, not_true_eq_false, if_false, hpr, hc', Bool.false_eq_true, if_true]
              exact ⟨wf_of_same hb rfl rfl rfl rfl rfl, .inl ⟨_, rfl⟩⟩
          · simp only [step, receiveMessage, receiveYield, hp, hs, ne_eq, not_true_eq_false, if_false, hpr, if_true]
            exact ⟨hb, .inl ⟨_, rfl⟩⟩
        · simp only [step, receiveMessage, receiveYield, hp, ne_eq, hs, not_false_eq_true, if_true]
          exact ⟨hb, .inr (.inl ⟨_, rfl⟩)⟩
    | register m =>
      cases hs : b.registrationsBySession.get s with
      | none => simp only [step, receiveMessage, receiveRegister, hs]; exact ⟨hb, .inr (.inl ⟨_, rfl⟩)⟩
      | some d =>
        cases ht : b.registrationsByProcedure.get m.procedure with
        | none =>
          have hw := wf_register_new b hb s m d hs ht
          refine ⟨by simpa only [step, receiveMessage] using hw,
            .inl ⟨.reply ⟨.registered ⟨m.requestId, .int b.idgen.next.2⟩, s⟩, ?_⟩⟩
          simp only [step, receiveMessage, register_new b s m d hs ht]; rfl
        | some r =>
          simp only [step, receiveMessage, register_taken b s m d r hs ht]
          exact ⟨hb, .inl ⟨_, rfl⟩⟩
    | unregister m =>
      cases hs : b.registrationsBySession.get s with
      | none => simp only [step, receiveMessage, receiveUnregister, hs]; exact ⟨hb, .inr (.inl ⟨_, rfl⟩)⟩
      | some d =>
        cases hr : d.get m.registrationId.val with
        | none => simp only [step, receiveMessage, receiveUnregister, hs, hr]; exact ⟨hb, .inr (.inl ⟨_, rfl⟩)⟩
        | some r =>
          have hw := wf_unregister b hb s m d r hs hr
          refine ⟨by simpa only [step, receiveMessage] using hw, .inl ⟨.reply ⟨.unregistered ⟨m.requestId⟩, s⟩, ?_⟩⟩
          simp only [step, receiveMessage, unregister_ok b hb s m d r hs hr]; rfl
    | error m =>
      simp only [step, receiveMessage, receiveError]
      split
      · exact ⟨hb, .inr (.inl ⟨_, rfl⟩)⟩
      · split
        · exact ⟨hb, .inr (.inl ⟨_, rfl⟩)⟩
        · exact ⟨wf_of_same hb rfl rfl rfl rfl rfl, .inl ⟨_, rfl⟩⟩
    | _ => exact ⟨hb, .inr (.inl ⟨_, rfl⟩)⟩

theorem wf_step (b : Dealer) (hb : b.Wf) (op : Op) : (b.step op).1.Wf := (step_spec b hb op).1

theorem wf_runFrom (ops : List Op) : ∀ b : Dealer, b.Wf → (b.runFrom ops).1.Wf := by
  induction ops with
  | nil => exact fun b h => h
  | cons op ops ih => exact fun b h => ih _ (wf_step b h op)

theorem wf_after (ops : List Op) : (after ops).Wf := wf_runFrom ops _ wf_init

theorem runFrom_append (xs ys : List Op) : ∀ b : Dealer,
    b.runFrom (xs ++ ys) = ((((b.runFrom xs).1).runFrom ys).1, (b.runFrom xs).2 ++ (((b.runFrom xs).1).runFrom ys).2) := by
  induction xs with
  | nil => intro b; rfl
  | cons op xs ih => intro b; simp only [List.cons_append, runFrom, ih]

theorem after_snoc (ops : List Op) (op : Op) : after (ops ++ [op]) = ((after ops).step op).1 := by
  simp only [after, runFrom_append]; rfl

theorem trace_snoc (ops : List Op) (op : Op) :
    trace (ops ++ [op]) = trace ops ++ [(op, ((after ops).step op).2)] := by
  simp only [trace, runFrom_append]; rfl

end Wamp.Dealer
