import Verif.Proofs.DealerRel

/-! # The dealer follows the view -/

namespace Wamp.Dealer
open Spec.Rpc

theorem RegRel.congr {b b' : Dealer} {v v' : View} (h : RegRel b v) (h1 : b'.heap = b.heap)
    (h2 : b'.registrationsByProcedure = b.registrationsByProcedure) (h3 : b'.registrationsBySession = b.registrationsBySession)
    (h4 : v'.known = v.known) (h5 : v'.held = v.held) (h6 : v.drawn ≤ v'.drawn) : RegRel b' v' := by
  refine ⟨?_, ?_, ?_, ?_, ?_⟩
  · rw [h3, h4]; exact h.known
  · rw [h1, h2, h5]; exact h.held
  · rw [h1, h2, h3]; exact h.dict
  · rw [h5]; intro x hx; have := h.ids x hx; omega
  · rw [h5]; exact h.inj

theorem CallRel.congr {b b' : Dealer} {v v' : View} (h : CallRel b v) (h1 : b'.pendingCalls = b.pendingCalls)
    (h2 : b'.callToInvocationId = b.callToInvocationId) (h3 : b'.idgen = IdGen.after v'.drawn)
    (h4 : v'.issued = v.issued) (h5 : v'.pending = v.pending) (h6 : v.drawn ≤ v'.drawn) : CallRel b' v' := by
  refine ⟨h3, ?_, ?_, ?_, ?_, ?_, ?_⟩
  · rw [h4]; intro x hx; have := h.range x hx; omega
  · rw [h4]; exact h.inj
  · rw [h4, h5]; exact h.sub
  · rw [h1, h5]; exact h.pend
  · rw [h1, h5]; exact h.sup
  · rw [h2, h4]; exact h.map

theorem FullRel.congr {c : Int} {b b' : Dealer} {v v' : View} (h : FullRel c b v)
    (h2 : b'.callToInvocationId = b.callToInvocationId) (h5 : v'.pending = v.pending) : FullRel c b' v' := by
  unfold FullRel; rw [h2, h5]; exact h

theorem next_error (v : View) (op : Op) (msg : String) : v.next (op, .error (.valueError msg)) = v := by
  unfold View.next; split <;> first | rfl | (rename_i h; cases h)

theorem next_call_new {v : View} {s c : Int} {m : Call} {i rid : Int} (h : ∀ x ∈ v.issued, x.inv ≠ i) :
    v.next (.receiveMessage s (.call m), .ok (.reply ⟨.invocation (invocationFor m i rid), c⟩)) =
    ⟨v.known, v.held, v.issued ++ [⟨i, s, m.requestId, c, PyDict.flag m.options "receive_progress"⟩],
      v.pending ++ [⟨i, s, m.requestId, c, PyDict.flag m.options "receive_progress"⟩], v.drawn + 1⟩ := by
  have : v.issued.any (fun x => x.inv = i) = false := by
    rw [List.any_eq_false]; intro x hx; simpa using h x hx
  simp only [View.next, invocationFor, PyInt.val]
  exact if_neg (fun h' => Bool.false_ne_true (this.symm.trans h'))

theorem next_call_old {v : View} {s c : Int} {m : Call} {i rid : Int} (h : ∃ x ∈ v.issued, x.inv = i) :
    v.next (.receiveMessage s (.call m), .ok (.reply ⟨.invocation (invocationFor m i rid), c⟩)) = v := by
  have : v.issued.any (fun x => x.inv = i) = true := by
    rw [List.any_eq_true]; obtain ⟨x, hx, e⟩ := h; exact ⟨x, hx, by simpa using e⟩
  simp only [View.next, invocationFor, PyInt.val]
  exact if_pos this

theorem next_yield_final {v : View} {s : Int} {y : Yield} {q : PyInt} {a k c} :
    v.next (.receiveMessage s (.yield_ y), .ok (.reply ⟨.result ⟨q, a, k, [], none, none, false⟩, c⟩)) =
    ⟨v.known, v.held, v.issued, v.pending.filter (·.inv ≠ y.requestId.val), v.drawn⟩ := rfl

theorem next_yield_progress {v : View} {s : Int} {y : Yield} {q : PyInt} {a k c x} (hx : Value.truthy x = true) :
    v.next (.receiveMessage s (.yield_ y), .ok (.reply ⟨.result ⟨q, a, k, [(.str "progress", x)], none, none, false⟩, c⟩)) = v := by
  have : PyDict.flag (Result.details ⟨q, a, k, [(.str "progress", x)], none, none, false⟩) "progress" = true := by
    simp only [Result.details, withSerializer]
    show PyDict.flag [(Value.str "progress", x)] "progress" = true
    simp [PyDict.flag, PyDict.get?, hx]
  simp only [View.next, this, if_true]

theorem regRel_init : RegRel init {} := by
  refine ⟨?_, ?_, ?_, ?_, ?_⟩ <;> simp [init]

theorem callRel_init : CallRel init {} := by
  refine ⟨rfl, ?_, ?_, ?_, ?_, ?_, ?_⟩ <;> simp [init]

theorem fullRel_init (c : Int) : FullRel c init {} := by simp [FullRel]

/-- Ending a call on both sides. -/
theorem pend_end {b : Dealer} {v : View} (hc : CallRel b v) (j : Int) :
    (∀ i q, (b.pendingCalls.del j).get i = some q → entry i q ∈ v.pending.filter (·.inv ≠ j)) ∧
    (∀ x ∈ v.pending.filter (·.inv ≠ j), x ∈ v.issued) ∧
    (∀ x ∈ v.pending.filter (·.inv ≠ j), ∃ p, (b.pendingCalls.del j).get x.inv = some p ∧ x = entry x.inv p) := by
  refine ⟨?_, ?_, ?_⟩
  · intro i q hq
    simp only [Dict.get_del] at hq
    split at hq
    · cases hq
    · rename_i hne
      simp only [List.mem_filter, decide_eq_true_eq]
      exact ⟨hc.pend i q hq, fun e => hne e.symm⟩
  · intro x hx; simp only [List.mem_filter] at hx; exact hc.sub x hx.1
  · intro x hx
    simp only [List.mem_filter, decide_eq_true_eq] at hx
    simp only [Dict.get_del]
    rw [if_neg (fun e => hx.2 e.symm)]; exact hc.sup x hx.1

/-- The two unconditional relations are kept by every call, as long as ids have not wrapped. -/
theorem rel_step (b : Dealer) (hb : b.Wf) (v : View) (hr : RegRel b v) (hc : CallRel b v) (op : Op)
    (hd : v.drawn < 2 ^ 53) :
    RegRel (b.step op).1 (v.next (op, (b.step op).2)) ∧ CallRel (b.step op).1 (v.next (op, (b.step op).2)) := by
  have hk := kind b hb op
  generalize hres : b.step op = res at hk ⊢
  cases hk with
  | fail e => rw [next_error]; exact ⟨hr, hc⟩
  | keyError s m p h1 h2 h3 h4 =>
    obtain ⟨e1, e2, e3⟩ := pend_end hc m.requestId.val
    exact ⟨hr.congr rfl rfl rfl rfl rfl (Nat.le_refl _), ⟨hc.gen, hc.range, hc.inj, e2, e1, e3, hc.map⟩⟩
  | add d b' h1 h2 =>
    have h2' : b' = { b with
        registrationsBySession := b.registrationsBySession.set d.sessionId.val .empty
        sessions := b.sessions.set d.sessionId.val d } := by
      rw [h2]; simp only [addSession, Dict.contains, h1]; rfl
    subst h2'
    refine ⟨⟨?_, ?_, ?_, ?_, ?_⟩, hc.congr rfl rfl hc.gen rfl rfl (Nat.le_refl _)⟩
    · intro s
      simp only [View.next, List.mem_append, List.mem_singleton, hr.known, Dict.get_set]
      split
      · rename_i e; subst e; simp
      · rename_i e; constructor
        · rintro (h | h)
          · exact h
          · exact absurd h.symm e
        · exact .inl
    · exact hr.held
    · intro s p r hp hs
      obtain ⟨d', k1, k2⟩ := hr.dict s p r hp hs
      refine ⟨d', ?_, k2⟩
      simp only [Dict.get_set]
      rw [if_neg]
      · exact k1
      · intro e; rw [e, k1] at h1; cases h1
    · exact hr.ids
    · exact hr.inj
  | remove s d b' h1 h2 =>
    obtain ⟨b'', k1, k2, k3, k4, k5, k6, k7⟩ := removeSession_ok b hb s d h1
    rw [h2] at k1; injection k1 with k1; subst k1
    have hiff : ∀ p r, b.registrationsByProcedure.get p = some r → ((b.heap r).registrants = one s ↔ ∃ i, d.get i = some r) := by
      intro p r hp
      constructor
      · intro hs
        obtain ⟨d', e1, e2⟩ := hr.dict s p r hp hs
        rw [h1] at e1; cases e1; exact ⟨_, e2⟩
      · rintro ⟨i, hi⟩; exact ((hb.ses s d h1).2 i r hi).2.1
    refine ⟨⟨?_, ?_, ?_, ?_, ?_⟩, hc.congr k4.1 k4.2.1 (k4.2.2.trans hc.gen) rfl rfl (Nat.le_refl _)⟩
    · intro s'
      simp only [View.next, List.mem_filter, decide_eq_true_eq, hr.known, k2, Dict.get_del]
      split
      · rename_i e; subst e; simp
      · rename_i e; simp [Ne.symm e]
    · intro s' p i
      simp only [View.next, List.mem_filter, decide_eq_true_eq, hr.held]
      constructor
      · rintro ⟨⟨r, e1, e2, e3⟩, hne⟩
        have hn : ¬ ∃ i, d.get i = some r := by
          rw [← hiff p r e1, e2]; exact fun e => hne (one_inj e)
        exact ⟨r, (k7 p r).2 ⟨e1, hn⟩, by rw [k6 r hn]; exact e2, by rw [k6 r hn]; exact e3⟩
      · rintro ⟨r, e1, e2, e3⟩
        obtain ⟨e1, hn⟩ := (k7 p r).1 e1
        rw [k6 r hn] at e2 e3
        refine ⟨⟨r, e1, e2, e3⟩, ?_⟩
        rintro rfl
        exact hn ((hiff p r e1).1 e2)
    · intro s' p r hp hs
      obtain ⟨e1, hn⟩ := (k7 p r).1 hp
      rw [k6 r hn] at hs ⊢
      obtain ⟨d', j1, j2⟩ := hr.dict s' p r e1 hs
      refine ⟨d', ?_, j2⟩
      rw [k2, Dict.get_del, if_neg]
      · exact j1
      · rintro rfl; exact hn ((hiff p r e1).1 hs)
    · intro x hx; simp only [View.next, List.mem_filter] at hx; exact hr.ids x hx.1
    · intro x hx y hy
      simp only [View.next, List.mem_filter] at hx hy
      exact hr.inj x hx.1 y hy.1
  | has t => exact ⟨hr, hc⟩
  | callNone s m h => exact ⟨hr, hc⟩
  | callContinue s m r c i h1 h2 h3 h4 =>
    obtain ⟨x, hx, e, -⟩ := hc.map _ _ h4
    rw [next_call_old ⟨x, hx, e⟩]
    exact ⟨hr, hc⟩
  | callNew s m r c h1 h2 h3 =>
    have hid : b.idgen.next = (IdGen.after (v.drawn + 1), (v.drawn : Int) + 1) := by rw [hc.gen, idgen_next, draw_small hd]
    rw [hid]
    simp only
    rw [next_call_new (by intro x hx e; have := hc.range x hx; omega)]
    have hnew : ∀ x ∈ v.issued, x.inv ≠ (v.drawn : Int) + 1 := by intro x hx e; have := hc.range x hx; omega
    refine ⟨hr.congr rfl rfl rfl rfl rfl (by simp), rfl, ?_, ?_, ?_, ?_, ?_, ?_⟩
    · intro x hx
      simp only [List.mem_append, List.mem_singleton] at hx
      rcases hx with hx | rfl
      · have := hc.range x hx; simp only; omega
      · simp only; omega
    · intro x hx y hy e
      simp only [List.mem_append, List.mem_singleton] at hx hy
      rcases hx with hx | rfl <;> rcases hy with hy | rfl
      · exact hc.inj x hx y hy e
      · exact absurd e (hnew x hx)
      · exact absurd e.symm (hnew y hy)
      · rfl
    · intro x hx
      simp only [List.mem_append, List.mem_singleton] at hx ⊢
      rcases hx with hx | rfl
      · exact .inl (hc.sub x hx)
      · exact .inr rfl
    · intro i p hp
      simp only [Dict.get_set] at hp
      simp only [List.mem_append, List.mem_singleton]
      split at hp
      · rename_i e; subst e; cases hp; right; simp only [entry, newEntry, flag_eq]
      · exact .inl (hc.pend i p hp)
    · intro x hx
      simp only [List.mem_append, List.mem_singleton] at hx
      simp only [Dict.get_set]
      rcases hx with hx | rfl
      · rw [if_neg (fun e => hnew x (hc.sub x hx) e.symm)]; exact hc.sup x hx
      · exact ⟨_, if_pos rfl, by simp only [entry, newEntry, flag_eq]⟩
    · intro k i hk
      simp only [Dict.get_set] at hk
      simp only [List.mem_append, List.mem_singleton]
      split at hk
      · rename_i e; cases hk; exact ⟨_, .inr rfl, rfl, e⟩
      · obtain ⟨x, hx, e⟩ := hc.map k i hk; exact ⟨x, .inl hx, e⟩
  | yieldProgress s m p h1 h2 h3 h4 =>
    rw [next_yield_progress (by rw [flag_eq]; exact h3)]
    exact ⟨hr, hc⟩
  | yieldFinal s m p i h1 h2 h3 h4 =>
    rw [next_yield_final]
    obtain ⟨e1, e2, e3⟩ := pend_end hc m.requestId.val
    refine ⟨hr.congr rfl rfl rfl rfl rfl (Nat.le_refl _), ⟨hc.gen, hc.range, hc.inj, e2, e1, e3, ?_⟩⟩
    intro k j hk
    simp only [Dict.get_del] at hk
    split at hk
    · cases hk
    · exact hc.map k j hk
  | registerNew s m d h1 h2 =>
    have hid : b.idgen.next = (IdGen.after (v.drawn + 1), (v.drawn : Int) + 1) := by rw [hc.gen, idgen_next, draw_small hd]
    have hlt : ∀ t r, b.registrationsByProcedure.get t = some r → r ≠ b.nextRef := by
      intro t r h e; have := (hb.proc t r h).2.2; rw [e] at this; exact Nat.lt_irrefl _ this
    rw [hid]
    simp only
    have hnew : ∀ x ∈ v.held, x.id ≠ (v.drawn : Int) + 1 := by intro x hx e; have := hr.ids x hx; omega
    refine ⟨⟨?_, ?_, ?_, ?_, ?_⟩, hc.congr rfl rfl rfl rfl rfl (Nat.le_succ _)⟩
    · intro s'
      simp only [View.next, hr.known, Dict.get_set]
      split
      · rename_i e; subst e; exact ⟨fun _ => ⟨_, rfl⟩, fun _ => ⟨_, h1⟩⟩
      · rfl
    · intro s' p i
      simp only [View.next, PyInt.val, List.mem_append, List.mem_singleton, hr.held, Dict.get_set, Reg.mk.injEq]
      constructor
      · rintro (⟨r, e1, e2, e3⟩ | ⟨rfl, rfl, rfl⟩)
        · refine ⟨r, ?_, ?_⟩
          · rw [if_neg, e1]; rintro rfl; rw [e1] at h2; cases h2
          · simp only [if_neg (hlt _ _ e1)]; exact ⟨e2, e3⟩
        · exact ⟨b.nextRef, by simp, by simp, by simp⟩
      · rintro ⟨r, e1, e2, e3⟩
        split at e1
        · rename_i e; subst e; cases e1
          simp only [if_true] at e2 e3
          exact .inr ⟨(one_inj e2).symm, rfl, e3.symm⟩
        · simp only [if_neg (hlt _ _ e1)] at e2 e3
          exact .inl ⟨r, e1, e2, e3⟩
    · intro s' p r hp hs
      simp only [Dict.get_set] at hp hs ⊢
      split at hp
      · cases hp
        simp only [if_true] at hs ⊢
        have := one_inj hs; subst this
        exact ⟨_, if_pos rfl, by simp⟩
      · simp only [if_neg (hlt _ _ hp)] at hs ⊢
        obtain ⟨d', k1, k2⟩ := hr.dict s' p r hp hs
        have hne : ¬ (v.drawn : Int) + 1 = (b.heap r).id := fun e =>
          hnew ⟨s', p, (b.heap r).id⟩ ((hr.held _ _ _).2 ⟨r, hp, hs, rfl⟩) e.symm
        split
        · rename_i e; subst e
          rw [h1] at k1; cases k1
          exact ⟨_, rfl, by rw [Dict.get_set, if_neg hne]; exact k2⟩
        · exact ⟨d', k1, k2⟩
    · intro x hx
      simp only [View.next, PyInt.val, List.mem_append, List.mem_singleton] at hx ⊢
      rcases hx with hx | rfl
      · have := hr.ids x hx; omega
      · simp only; omega
    · intro x hx y hy e
      simp only [View.next, PyInt.val, List.mem_append, List.mem_singleton] at hx hy
      rcases hx with hx | rfl <;> rcases hy with hy | rfl
      · exact hr.inj x hx y hy e
      · exact absurd e (hnew x hx)
      · exact absurd e.symm (hnew y hy)
      · rfl
  | registerTaken s m d r h1 h2 => exact ⟨hr, hc⟩
  | unregister s m d r h1 h2 =>
    obtain ⟨g1, g2, g3⟩ := (hb.ses s d h1).2 _ _ h2
    have hdp := drop_proc b hb g3
    have hheap : ∀ r', r' ≠ r → (b.drop r).heap r' = b.heap r' := by
      intro r' h; simp only [drop, write, if_neg h]
    refine ⟨⟨?_, ?_, ?_, ?_, ?_⟩, hc.congr rfl rfl hc.gen rfl rfl (Nat.le_refl _)⟩
    · intro s'
      simp only [View.next, hr.known, Dict.get_set]
      split
      · rename_i e; subst e; exact ⟨fun _ => ⟨_, rfl⟩, fun _ => ⟨_, h1⟩⟩
      · rfl
    · intro s' p i
      simp only [View.next, List.mem_filter, decide_eq_true_eq, hr.held]
      constructor
      · rintro ⟨⟨r', e1, e2, e3⟩, hne⟩
        have hr' : r' ≠ r := by
          rintro rfl; rw [g2] at e2; exact hne ⟨(one_inj e2).symm, by rw [← e3, g1]⟩
        exact ⟨r', (hdp p r').2 ⟨e1, hr'⟩, by rw [hheap r' hr']; exact e2, by rw [hheap r' hr']; exact e3⟩
      · rintro ⟨r', e1, e2, e3⟩
        obtain ⟨e1, hr'⟩ := (hdp p r').1 e1
        simp only [hheap r' hr'] at e2 e3
        refine ⟨⟨r', e1, e2, e3⟩, ?_⟩
        rintro ⟨rfl, e⟩
        obtain ⟨d', k1, k2⟩ := hr.dict _ p r' e1 e2
        rw [h1] at k1; cases k1
        rw [e3, e, h2] at k2; cases k2; exact hr' rfl
    · intro s' p r' hp hs
      simp only at hp hs ⊢
      obtain ⟨e1, hr'⟩ := (hdp p r').1 hp
      rw [hheap r' hr'] at hs ⊢
      obtain ⟨d', k1, k2⟩ := hr.dict s' p r' e1 hs
      rw [Dict.get_set]
      split
      · rename_i e; subst e
        rw [h1] at k1; cases k1
        refine ⟨_, rfl, ?_⟩
        rw [Dict.get_del, if_neg]
        · exact k2
        · intro e; rw [← e, h2] at k2; cases k2; exact hr' rfl
      · exact ⟨d', k1, k2⟩
    · intro x hx; simp only [View.next, List.mem_filter] at hx; exact hr.ids x hx.1
    · intro x hx y hy
      simp only [View.next, List.mem_filter] at hx hy
      exact hr.inj x hx.1 y hy.1
  | error s m p h1 h2 =>
    obtain ⟨e1, e2, e3⟩ := pend_end hc m.requestId.val
    exact ⟨hr.congr rfl rfl rfl rfl rfl (Nat.le_refl _), ⟨hc.gen, hc.range, hc.inj, e2, e1, e3, hc.map⟩⟩

/-- The additional relation is kept by every call in which the session does not reuse a pending request id. -/
theorem full_step (c : Int) (b : Dealer) (hb : b.Wf) (v : View) (hc : CallRel b v) (hf : FullRel c b v) (op : Op)
    (hd : v.drawn < 2 ^ 53) (hn : ¬ ReusesPending c v (op, (b.step op).2)) :
    FullRel c (b.step op).1 (v.next (op, (b.step op).2)) := by
  have hk := kind b hb op
  generalize hres : b.step op = res at hk hn ⊢
  cases hk with
  | fail e => rw [next_error]; exact hf
  | keyError s m p h1 h2 h3 h4 =>
    intro x hx
    simp only [View.next, List.mem_filter] at hx
    exact hf x hx.1
  | add d b' h1 h2 =>
    have h2' : b' = { b with
        registrationsBySession := b.registrationsBySession.set d.sessionId.val .empty
        sessions := b.sessions.set d.sessionId.val d } := by
      rw [h2]; simp only [addSession, Dict.contains, h1]; rfl
    subst h2'
    exact hf.congr rfl rfl
  | remove s d b' h1 h2 =>
    obtain ⟨b'', k1, k2, k3, k4, -⟩ := removeSession_ok b hb s d h1
    rw [h2] at k1; injection k1 with k1; subst k1
    exact hf.congr k4.2.1 rfl
  | has t => exact hf
  | callNone s m h => exact hf
  | callContinue s m r c i h1 h2 h3 h4 =>
    obtain ⟨x, hx, e, -⟩ := hc.map _ _ h4
    rw [next_call_old ⟨x, hx, e⟩]; exact hf
  | callNew s m r c' h1 h2 h3 =>
    have hid : b.idgen.next = (IdGen.after (v.drawn + 1), (v.drawn : Int) + 1) := by rw [hc.gen, idgen_next, draw_small hd]
    rw [hid] at hn ⊢
    simp only at hn ⊢
    rw [next_call_new (by intro x hx e; have := hc.range x hx; omega)]
    have hkey : ∀ x ∈ v.pending, x.caller = c → (s, m.requestId.val) ≠ (x.caller, x.request.val) := by
      intro x hx hxc e
      rcases h3 with h3 | h3
      · injection e with e1 e2
        exact hn ⟨e1.trans hxc, h3, x, hx, hxc, e2.symm⟩
      · rw [e, hf x hx hxc] at h3; cases h3
    intro x hx hxc
    simp only [List.mem_append, List.mem_singleton] at hx
    simp only [Dict.get_set]
    rcases hx with hx | rfl
    · rw [if_neg (hkey x hx hxc)]; exact hf x hx hxc
    · exact if_pos rfl
  | yieldProgress s m p h1 h2 h3 h4 =>
    rw [next_yield_progress (by rw [flag_eq]; exact h3)]; exact hf
  | yieldFinal s m p i h1 h2 h3 h4 =>
    rw [next_yield_final]
    intro x hx hxc
    simp only [List.mem_filter, decide_eq_true_eq] at hx
    simp only [Dict.get_del]
    rw [if_neg]
    · exact hf x hx.1 hxc
    · intro e
      have hpc : p.callerId = c := by injection e with e1 e2; exact e1.trans hxc
      have hm := hf _ (hc.pend _ _ h1) hpc
      simp only [entry] at hm
      have := hf x hx.1 hxc
      rw [← e, hm] at this
      injection this with this
      exact hx.2 this.symm
  | registerNew s m d h1 h2 => exact hf.congr rfl rfl
  | registerTaken s m d r h1 h2 => exact hf
  | unregister s m d r h1 h2 => exact hf.congr rfl rfl
  | error s m p h1 h2 =>
    intro x hx
    simp only [View.next, List.mem_filter] at hx
    exact hf x hx.1

theorem rel_after (ops : List Op) : (view (trace ops)).drawn < 2 ^ 53 →
    RegRel (after ops) (view (trace ops)) ∧ CallRel (after ops) (view (trace ops)) := by
  induction ops using snoc_induction with
  | nil => intro _; exact ⟨regRel_init, callRel_init⟩
  | snoc ops op ih =>
    intro h
    rw [trace_snoc, view_snoc] at h ⊢
    have hd := Nat.lt_of_le_of_lt (drawn_next_le _ _) h
    obtain ⟨i1, i2⟩ := ih hd
    rw [after_snoc]
    exact rel_step _ (wf_after ops) _ i1 i2 op hd

theorem full_after (c : Int) (ops : List Op) : (view (trace ops)).drawn < 2 ^ 53 → NoReuse c (trace ops) →
    FullRel c (after ops) (view (trace ops)) := by
  induction ops using snoc_induction with
  | nil => intro _ _; exact fullRel_init c
  | snoc ops op ih =>
    intro h hn
    rw [trace_snoc, view_snoc] at h ⊢
    rw [trace_snoc] at hn
    have hd := Nat.lt_of_le_of_lt (drawn_next_le _ _) h
    obtain ⟨n1, n2⟩ := noReuse_snoc hn
    rw [after_snoc]
    exact full_step c _ (wf_after ops) _ (rel_after ops hd).2 (ih hd n1) op hd n2

/-- The number of ids drawn is at most the number of calls. -/
theorem drawn_le_length (ops : List Op) : (view (trace ops)).drawn ≤ ops.length := by
  induction ops using snoc_induction with
  | nil => simp [trace, runFrom, view]
  | snoc ops op ih =>
    rw [trace_snoc, view_snoc]
    have : ∀ (v : View) e, (v.next e).drawn ≤ v.drawn + 1 := by
      intro v e; unfold View.next; split <;> simp <;> split <;> simp
    have := this (view (trace ops)) (op, ((after ops).step op).2)
    simp; omega

/-! ## The view in terms of the trace -/

theorem known_iff (tr : List Obs) (s : Int) : s ∈ (view tr).known ↔
    ∃ pre e post, tr = pre ++ e :: post ∧ Joins e s ∧ ∀ e' ∈ post, ¬ Leaves e' s := by
  induction tr using snoc_induction with
  | nil => simp [view]
  | snoc tr e ih =>
    rw [split_snoc (P := fun e => Joins e s) (Q := fun e' => ¬ Leaves e' s), ← ih, view_snoc]
    obtain ⟨op, res⟩ := e
    cases op with
    | addSession d => cases res <;> simp [View.next, Joins, Leaves, or_comm, eq_comm]
    | removeSession s0 =>
      have hj : ¬ Joins (.removeSession s0, res) s := by rintro ⟨_, _, e, _⟩; cases e
      simp only [hj, false_or]
      cases res with
      | error e => simp [View.next, Leaves]
      | ok out =>
        simp only [View.next, List.mem_filter, decide_eq_true_eq]
        constructor
        · rintro ⟨h1, h2⟩
          refine ⟨h1, ?_⟩
          rintro ⟨_, e⟩; cases e; exact h2 rfl
        · rintro ⟨h1, h2⟩
          exact ⟨h1, fun e => h2 ⟨out, by rw [e]⟩⟩
    | hasRegistration t0 => cases res <;> simp [View.next, Joins, Leaves]
    | receiveMessage s0 m =>
      have : ((view tr).next (.receiveMessage s0 m, res)).known = (view tr).known := by
        unfold View.next; split <;> first | rfl | (split <;> rfl) | (rename_i e; cases e)
      rw [this]; simp [Joins, Leaves]

theorem held_next (v : View) (e : Obs) (x : Reg) : x ∈ (v.next e).held ↔ Registers e x ∨ (x ∈ v.held ∧ ¬ Ends e x) := by
  obtain ⟨op, res⟩ := e
  cases op with
  | addSession d => cases res <;> simp [View.next, Registers, Ends]
  | hasRegistration t => cases res <;> simp [View.next, Registers, Ends]
  | removeSession s0 =>
    have hj : ¬ Registers (.removeSession s0, res) x := by rintro ⟨_, _, _, e, _⟩; cases e
    simp only [hj, false_or]
    cases res with
    | error e => simp [View.next, Ends]
    | ok out =>
      simp only [View.next, List.mem_filter, decide_eq_true_eq]
      constructor
      · rintro ⟨h1, h2⟩
        refine ⟨h1, ?_⟩
        rintro (⟨_, _, e, -⟩ | ⟨_, e⟩)
        · cases e
        · cases e; exact h2 rfl
      · rintro ⟨h1, h2⟩
        exact ⟨h1, fun e => h2 (.inr ⟨out, by rw [e]⟩)⟩
  | receiveMessage s0 m =>
    cases m with
    | register m =>
      have hE : ¬ Ends (.receiveMessage s0 (.register m), res) x := by
        rintro (⟨_, _, e, -⟩ | ⟨_, e⟩) <;> cases e
      simp only [hE, not_false_iff, and_true]
      unfold View.next
      split <;> first | (rename_i h; cases h; done) | skip
      · rename_i s' m' r c h
        cases h
        simp only [List.mem_append, List.mem_singleton]
        constructor
        · rintro (h | rfl)
          · exact .inr h
          · exact .inl ⟨_, _, _, rfl, rfl, rfl⟩
        · rintro (⟨m', r', c', e, e1, e2⟩ | h)
          · cases e; right; cases x; simp_all
          · exact .inl h
      · constructor
        · exact .inr
        · rintro (⟨m', r', c', e, e1, e2⟩ | h')
          · cases e; rename_i h3 _ _ _ _ _; exact (h3 _ _ _ _ rfl).elim
          · exact h'
    | unregister m =>
      have hj : ¬ Registers (.receiveMessage s0 (.unregister m), res) x := by rintro ⟨_, _, _, e, _⟩; cases e
      simp only [hj, false_or]
      cases res with
      | error e => simp [View.next, Ends]
      | ok out =>
        simp only [View.next, List.mem_filter, decide_eq_true_eq]
        constructor
        · rintro ⟨h1, h2⟩
          refine ⟨h1, ?_⟩
          rintro (⟨m', out', e, e2⟩ | ⟨_, e⟩)
          · cases e; exact h2 ⟨rfl, e2.symm⟩
          · cases e
        · rintro ⟨h1, h2⟩
          refine ⟨h1, ?_⟩
          rintro ⟨rfl, e2⟩
          exact h2 (.inl ⟨m, out, rfl, e2.symm⟩)
    | _ =>
      unfold View.next
      split <;> first | (rename_i e; cases e; done) | (split <;> simp [Registers, Ends]; done) | simp [Registers, Ends]

theorem held_iff (tr : List Obs) (x : Reg) : x ∈ (view tr).held ↔
    ∃ pre e post, tr = pre ++ e :: post ∧ Registers e x ∧ ∀ e' ∈ post, ¬ Ends e' x := by
  induction tr using snoc_induction with
  | nil => simp [view]
  | snoc tr e ih =>
    rw [split_snoc (P := fun e => Registers e x) (Q := fun e' => ¬ Ends e' x), ← ih, view_snoc, held_next]

theorem issued_next (v : View) (e : Obs) (i : Int) :
    (∃ x ∈ (v.next e).issued, x.inv = i) ↔ (∃ x ∈ v.issued, x.inv = i) ∨ Invokes e i := by
  by_cases hI : ∃ s m inv c, e = (.receiveMessage s (.call m), .ok (.reply ⟨.invocation inv, c⟩))
  · obtain ⟨s, m, inv, c, rfl⟩ := hI
    have hinv : Invokes (.receiveMessage s (.call m), .ok (.reply ⟨.invocation inv, c⟩)) i ↔ inv.requestId.val = i := by
      constructor
      · rintro ⟨_, _, _, _, e, h⟩; cases e; exact h
      · intro h; exact ⟨_, _, _, _, rfl, h⟩
    rw [hinv]
    simp only [View.next]
    split
    · rename_i h
      simp only [List.any_eq_true, decide_eq_true_eq] at h
      constructor
      · exact .inl
      · rintro (h' | h')
        · exact h'
        · obtain ⟨x, hx, e⟩ := h; exact ⟨x, hx, e.trans h'⟩
    · simp only [List.mem_append, List.mem_singleton]
      constructor
      · rintro ⟨x, hx | rfl, e⟩
        · exact .inl ⟨x, hx, e⟩
        · exact .inr e
      · rintro (⟨x, hx, e⟩ | h')
        · exact ⟨x, .inl hx, e⟩
        · exact ⟨_, .inr rfl, h'⟩
  · have hi : ¬ Invokes e i := by rintro ⟨s, m, inv, c, e', -⟩; exact hI ⟨s, m, inv, c, e'⟩
    have : (v.next e).issued = v.issued := by
      unfold View.next
      split <;> first | rfl | (exfalso; exact hI ⟨_, _, _, _, rfl⟩) | (split <;> rfl)
    simp [hi, this]

theorem issued_iff (tr : List Obs) (i : Int) : (∃ x ∈ (view tr).issued, x.inv = i) ↔ ∃ e ∈ tr, Invokes e i := by
  induction tr using snoc_induction with
  | nil => simp [view]
  | snoc tr e ih =>
    rw [view_snoc, issued_next, ih]
    simp [or_and_right, exists_or]

/-- The call's fate is sealed. -/
def Closes (e : Obs) (i : Int) : Prop := Final e i ∨ Crashes e i

theorem pending_next (v : View) (e : Obs) (x : Pending) : x ∈ (v.next e).pending ↔
    (Opens e x ∧ ¬ ∃ y ∈ v.issued, y.inv = x.inv) ∨ (x ∈ v.pending ∧ ¬ Closes e x.inv) := by
  by_cases hI : ∃ s m inv c, e = (.receiveMessage s (.call m), .ok (.reply ⟨.invocation inv, c⟩))
  · obtain ⟨s, m, inv, c, rfl⟩ := hI
    have hF : ¬ Closes (.receiveMessage s (.call m), .ok (.reply ⟨.invocation inv, c⟩)) x.inv := by
      rintro ((⟨_, _, _, _, e, -⟩ | ⟨_, _, _, e, -⟩) | ⟨_, _, e, -⟩) <;> cases e
    simp only [hF, not_false_iff, and_true, View.next]
    split
    · rename_i h
      simp only [List.any_eq_true, decide_eq_true_eq] at h
      constructor
      · exact .inr
      · rintro (⟨⟨m', i', e, e1, e2, e3⟩, h'⟩ | h')
        · cases e; rw [e1] at h; exact absurd h h'
        · exact h'
    · rename_i h
      simp only [List.any_eq_true, decide_eq_true_eq] at h
      simp only [List.mem_append, List.mem_singleton]
      constructor
      · rintro (h' | rfl)
        · exact .inr h'
        · exact .inl ⟨⟨_, _, rfl, rfl, rfl, rfl⟩, h⟩
      · rintro (⟨⟨m', i', e, e1, e2, e3⟩, h'⟩ | h')
        · cases e; right; cases x; simp_all
        · exact .inl h'
  · have ho : ¬ Opens e x := by rintro ⟨m, inv, e', -⟩; exact hI ⟨_, m, inv, _, e'⟩
    simp only [ho, false_and, false_or]
    have filt : ∀ i, (Closes e x.inv ↔ i = x.inv) → (v.next e).pending = v.pending.filter (·.inv ≠ i) →
        (x ∈ (v.next e).pending ↔ x ∈ v.pending ∧ ¬ Closes e x.inv) := by
      intro i h1 h2
      rw [h2, List.mem_filter, h1]
      simp only [decide_eq_true_eq]
      constructor <;> rintro ⟨a, b⟩ <;> exact ⟨a, fun h => b h.symm⟩
    have same : ¬ Closes e x.inv → (v.next e).pending = v.pending →
        (x ∈ (v.next e).pending ↔ x ∈ v.pending ∧ ¬ Closes e x.inv) := by
      intro h1 h2; rw [h2]; simp [h1]
    obtain ⟨op, res⟩ := e
    cases op with
    | addSession d => exact same (by simp [Closes, Final, Crashes]) (by cases res <;> rfl)
    | hasRegistration t => exact same (by simp [Closes, Final, Crashes]) (by cases res <;> rfl)
    | removeSession s0 => exact same (by simp [Closes, Final, Crashes]) (by cases res <;> rfl)
    | receiveMessage s0 m =>
      cases m with
      | error m =>
        cases res with
        | error e => exact same (by simp [Closes, Final, Crashes]) rfl
        | ok out =>
          refine filt m.requestId.val ?_ rfl
          constructor
          · rintro ((⟨_, _, _, _, e, -⟩ | ⟨_, _, _, e, h⟩) | ⟨_, _, e, -⟩) <;> cases e; exact h
          · intro h; exact .inl (.inr ⟨_, _, _, rfl, h⟩)
      | yield_ y =>
        by_cases hr : ∃ r c, res = .ok (.reply ⟨.result r, c⟩)
        · obtain ⟨r, c, rfl⟩ := hr
          cases hp : PyDict.flag r.details "progress" with
          | true =>
            refine same ?_ (by simp [View.next, hp])
            rintro ((⟨_, _, _, _, e, -, h⟩ | ⟨_, _, _, e, -⟩) | ⟨_, _, e, -⟩)
            · cases e; rw [hp] at h; cases h
            · cases e
            · cases e
          | false =>
            refine filt y.requestId.val ?_ (by simp [View.next, hp])
            constructor
            · rintro ((⟨_, _, _, _, e, h, -⟩ | ⟨_, _, _, e, h⟩) | ⟨_, _, e, -⟩) <;> cases e; exact h
            · intro h; exact .inl (.inl ⟨_, _, _, _, rfl, h, hp⟩)
        · by_cases hk : res = .error .keyError
          · subst hk
            refine filt y.requestId.val ?_ rfl
            constructor
            · rintro ((⟨_, _, _, _, e, h, -⟩ | ⟨_, _, _, e, h⟩) | ⟨_, _, e, h⟩) <;> cases e; exact h
            · intro h; exact .inr ⟨_, _, rfl, h⟩
          · refine same ?_ ?_
            · rintro ((⟨_, _, _, _, e, -⟩ | ⟨_, _, _, e, -⟩) | ⟨_, _, e, -⟩)
              · cases e; exact hr ⟨_, _, rfl⟩
              · cases e
              · cases e; exact hk rfl
            · unfold View.next
              split <;> first | rfl | (rename_i e; cases e; done) | (rename_i e; cases e; exact absurd rfl hk) | (rename_i e; cases e; exact absurd ⟨_, _, rfl⟩ hr)
      | call m =>
        refine same (by simp [Closes, Final, Crashes]) ?_
        unfold View.next
        split <;> first | rfl | (rename_i e; cases e; done) | (rename_i e; cases e; exact absurd ⟨_, _, _, _, rfl⟩ hI)
      | _ =>
        refine same (by simp [Closes, Final, Crashes]) ?_
        unfold View.next
        split <;> first | rfl | (rename_i e; cases e; done)

/-- A call is pending exactly when an INVOCATION with a new id was emitted for it and there has been no final outcome
since. -/
theorem pending_iff (tr : List Obs) (x : Pending) : x ∈ (view tr).pending ↔
    ∃ pre e post, tr = pre ++ e :: post ∧ (Opens e x ∧ ∀ e' ∈ pre, ¬ Invokes e' x.inv) ∧
      ∀ e' ∈ post, ¬ (Final e' x.inv ∨ Crashes e' x.inv) := by
  induction tr using snoc_induction with
  | nil => simp [view]
  | snoc tr e ih =>
    rw [split_snoc_pre (P := fun pre e => Opens e x ∧ ∀ e' ∈ pre, ¬ Invokes e' x.inv)
        (Q := fun e' => ¬ (Final e' x.inv ∨ Crashes e' x.inv)),
      ← ih, view_snoc, pending_next, issued_iff]
    simp [Closes]

end Wamp.Dealer
