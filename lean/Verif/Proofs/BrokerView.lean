import Verif.Proofs.BrokerIds

/-! # Known sessions and held subscriptions, one call at a time -/

namespace Wamp.Broker
open Spec.Pub

/-- The known sessions are the keys of the per-session dict, whatever the ids. -/
theorem known_step (b : Broker) (hb : b.Wf) (v : View) (op : Op)
    (h : ∀ s, s ∈ v.known ↔ ∃ d, b.subscriptionsBySession.get s = some d) :
    ∀ s, s ∈ (v.next (op, (b.step op).2)).known ↔ ∃ d, (b.step op).1.subscriptionsBySession.get s = some d := by
  have hset : ∀ s d y s', b.subscriptionsBySession.get s = some d →
      ((∃ d, b.subscriptionsBySession.get s' = some d) ↔ ∃ d, (b.subscriptionsBySession.set s y).get s' = some d) := by
    intro s d y s' hs; rw [Dict.get_set]
    split
    · rename_i e; subst e; exact ⟨fun _ => ⟨_, rfl⟩, fun _ => ⟨_, hs⟩⟩
    · rfl
  intro s'
  cases op with
  | addSession dt =>
    simp only [step, addSession]
    split
    · simpa [Except.map, View.next] using h s'
    · simp only [Except.map, View.next, List.mem_append, List.mem_singleton, h, Dict.get_set]
      split
      · rename_i e; subst e; simp
      · rename_i e; constructor
        · rintro (h | h)
          · exact h
          · exact absurd h.symm e
        · exact .inl
  | removeSession s =>
    cases hs : b.subscriptionsBySession.get s with
    | none => simp only [step, removeSession, hs, Except.map, View.next]; exact h s'
    | some d =>
      obtain ⟨b', k1, k2, k3, k4, k5, k6, k6', k7⟩ := removeSession_ok b hb s d hs
      simp only [step, k1, Except.map, View.next, List.mem_filter, h, k2, Dict.get_del, decide_eq_true_eq]
      split
      · rename_i e; subst e; simp
      · rename_i e; simp [Ne.symm e]
  | receiveMessage s m =>
    cases m with
    | subscribe m =>
      cases hs : b.subscriptionsBySession.get s with
      | none => simp only [step, receiveMessage, receiveSubscribe, hs, Except.map, View.next]; exact h s'
      | some d =>
        cases ht : b.subscriptionsByTopic.get m.topic with
        | some r0 =>
          simp only [step, receiveMessage, subscribe_old b s m d r0 hs ht, Except.map, View.next, h]
          exact hset s d _ s' hs
        | none =>
          simp only [step, receiveMessage, subscribe_new b s m d hs ht, Except.map, View.next, h]
          exact hset s d _ s' hs
    | unsubscribe m =>
      cases hs : b.subscriptionsBySession.get s with
      | none => simp only [step, receiveMessage, receiveUnsubscribe, hs, Except.map, View.next]; exact h s'
      | some d =>
        cases hr : d.get m.subscriptionId.val with
        | none => simp only [step, receiveMessage, receiveUnsubscribe, hs, hr, Except.map, View.next]; exact h s'
        | some r =>
          simp only [step, receiveMessage, unsubscribe_ok b hb s m d r hs hr, Except.map, View.next, h]
          exact hset s d _ s' hs
    | _ => exact h s'
  | receivePublish s m =>
    simp only [step, receivePublish]
    split <;> (simp only [Except.map, View.next]; exact h s')
  | hasSubscription t => exact h s'

theorem known_after (ops : List Op) : ∀ s, s ∈ (view (trace ops)).known ↔
    ∃ d, (after ops).subscriptionsBySession.get s = some d := by
  induction ops using snoc_induction with
  | nil => intro s; simp [trace, runFrom, view, after, init]
  | snoc ops op ih =>
    rw [trace_snoc, view_snoc, after_snoc]
    exact known_step _ (wf_after ops) _ op ih

/-- Two holdings of one session with the same id are for the same topic. -/
theorem Rel.held_inj {b : Broker} {v : View} (hb : b.Wf) (h : Rel b v) {x y : Holding} (hx : x ∈ v.held) (hy : y ∈ v.held)
    (e1 : x.session = y.session) (e2 : x.id = y.id) : x = y := by
  obtain ⟨r, d, k1, k2, k3, k4⟩ := h.ids x hx
  obtain ⟨r', d', k1', k2', k3', k4'⟩ := h.ids y hy
  rw [e1, k3'] at k3; cases k3
  rw [e2, k4'] at k4; cases k4
  have := (hb.top _ _ k1).1
  have h2 := (hb.top _ _ k1').1
  cases x; cases y; simp_all

theorem Rel.held_topic {b : Broker} {v : View} (h : Rel b v) {x y : Holding} (hx : x ∈ v.held) (hy : y ∈ v.held)
    (e1 : x.topic = y.topic) : x.id = y.id := by
  obtain ⟨r, d, k1, k2, k3, k4⟩ := h.ids x hx
  obtain ⟨r', d', k1', k2', k3', k4'⟩ := h.ids y hy
  rw [e1, k1'] at k1; cases k1
  rw [← k2, k2']

/-- What SUBSCRIBE by a known session answers. -/
theorem subscribe_reply (b : Broker) (s : Int) (m : Subscribe) (d : Dict Int Ref) (hs : b.subscriptionsBySession.get s = some d) :
    (b.step (.receiveMessage s (.subscribe m))).2 = .ok (.reply ⟨.subscribed ⟨m.requestId,
      .int (match b.subscriptionsByTopic.get m.topic with | some r => (b.heap r).id | none => b.idgen.next.2)⟩, s⟩) := by
  cases ht : b.subscriptionsByTopic.get m.topic with
  | some r0 => simp only [step, receiveMessage, subscribe_old b s m d r0 hs ht]; rfl
  | none => simp only [step, receiveMessage, subscribe_new b s m d hs ht]; rfl

/-- How the held subscriptions change with one call. -/
theorem held_step (b : Broker) (v : View) (h : Rel b v) (op : Op) (s : Int) (t : String) (i : Int) :
    (⟨s, t, i⟩ : Holding) ∈ (v.next (op, (b.step op).2)).held ↔
      Subscribes (op, (b.step op).2) s t i ∨
      ((⟨s, t, i⟩ : Holding) ∈ v.held ∧ ¬ Ends (op, (b.step op).2) s i) := by
  generalize hres : (b.step op).2 = res
  have main : (∀ s m, op ≠ .receiveMessage s (.subscribe m)) → ((⟨s, t, i⟩ : Holding) ∈ (v.next (op, res)).held ↔
      (⟨s, t, i⟩ : Holding) ∈ v.held ∧ ¬ Ends (op, res) s i) := by
    intro hne
    cases op with
    | addSession d =>
      cases res <;> simp [View.next, Ends]
    | removeSession s0 =>
      cases res with
      | error e => simp [View.next, Ends]
      | ok out =>
        simp only [View.next, Ends, List.mem_filter, decide_eq_true_eq]
        constructor
        · rintro ⟨h1, h2⟩
          refine ⟨h1, ?_⟩
          rintro (⟨_, _, e, -⟩ | ⟨_, e⟩)
          · cases e
          · cases e; exact h2 rfl
        · rintro ⟨h1, h2⟩
          exact ⟨h1, fun e => h2 (.inr ⟨out, by rw [e]⟩)⟩
    | receivePublish s0 m => cases res <;> simp [View.next, Ends]
    | hasSubscription t0 => cases res <;> simp [View.next, Ends]
    | receiveMessage s0 m =>
      cases m with
      | subscribe m => exact absurd rfl (hne s0 m)
      | unsubscribe m =>
        cases res with
        | error e => simp [View.next, Ends]
        | ok out =>
          simp only [View.next, Ends, List.mem_filter]
          constructor
          · rintro ⟨h1, h2⟩
            refine ⟨h1, ?_⟩
            rintro (⟨m', out', e, e2⟩ | ⟨_, e⟩)
            · cases e; simp [e2] at h2
            · cases e
          · rintro ⟨h1, h2⟩
            refine ⟨h1, ?_⟩
            simp only [decide_eq_true_eq]
            rintro ⟨e1, e2⟩
            subst e1; exact h2 (.inl ⟨m, out, rfl, e2.symm⟩)
      | _ => cases res <;> simp [View.next, Ends]
  by_cases hsub : ∃ s0 m, op = .receiveMessage s0 (.subscribe m)
  · obtain ⟨s0, m, rfl⟩ := hsub
    cases hs : b.subscriptionsBySession.get s0 with
    | none =>
      simp only [step, receiveMessage, receiveSubscribe, hs, Except.map] at hres
      subst hres
      simp [View.next, Subscribes, Ends]
    | some d =>
      rw [subscribe_reply b s0 m d hs] at hres
      generalize hid : (match b.subscriptionsByTopic.get m.topic with | some r => (b.heap r).id | none => b.idgen.next.2) = j at hres
      subst hres
      have hE : ¬ Ends (.receiveMessage s0 (.subscribe m), .ok (.reply ⟨.subscribed ⟨m.requestId, .int j⟩, s0⟩)) s i := by
        rintro (⟨_, _, e, -⟩ | ⟨_, e⟩) <;> cases e
      have hS : Subscribes (.receiveMessage s0 (.subscribe m), .ok (.reply ⟨.subscribed ⟨m.requestId, .int j⟩, s0⟩)) s t i ↔
          s = s0 ∧ m.topic = t ∧ j = i := by
        constructor
        · rintro ⟨m', r, rec, e, e1, e2⟩; cases e; exact ⟨rfl, e1, e2⟩
        · rintro ⟨rfl, e1, e2⟩; exact ⟨m, _, _, rfl, e1, e2⟩
      rw [hS]
      simp only [View.next, PyInt.val, hE, not_false_iff, and_true]
      by_cases hm : s0 ∈ v.subscribers m.topic
      · rw [subscribed_same hm]
        constructor
        · exact .inr
        · rintro (⟨rfl, rfl, rfl⟩ | h1)
          · obtain ⟨x, hx, e1, e2⟩ := mem_subscribers.1 hm
            obtain ⟨r, d', k1, k2, k3, k4⟩ := h.ids x hx
            rw [e2] at k1; rw [k1] at hid; simp only at hid
            have : x = ⟨s, m.topic, j⟩ := by cases x; simp_all
            exact this ▸ hx
          · exact h1
      · rw [subscribed_new hm, List.mem_append, List.mem_singleton]
        simp only [Holding.mk.injEq]
        constructor
        · rintro (h1 | ⟨e1, e2, e3⟩)
          · exact .inr h1
          · exact .inl ⟨e1, e2.symm, e3.symm⟩
        · rintro (⟨e1, e2, e3⟩ | h1)
          · exact .inr ⟨e1, e2.symm, e3.symm⟩
          · exact .inl h1
  · have hne : ∀ s m, op ≠ .receiveMessage s (.subscribe m) := fun s m e => hsub ⟨s, m, e⟩
    rw [main hne]
    constructor
    · exact .inr
    · rintro (⟨m, _, _, e, _⟩ | h)
      · cases e; exact absurd rfl (hne _ _)
      · exact h

theorem held_iff (ops : List Op) (s : Int) (t : String) (i : Int) : NoClash (trace ops) →
    ((⟨s, t, i⟩ : Holding) ∈ (view (trace ops)).held ↔
      ∃ pre e post, trace ops = pre ++ e :: post ∧ Subscribes e s t i ∧ ∀ e' ∈ post, ¬ Ends e' s i) := by
  induction ops using snoc_induction with
  | nil => intro _; simp [trace, runFrom, view]
  | snoc ops op ih =>
    intro hc
    rw [trace_snoc] at hc ⊢
    have hc' := (noClash_snoc hc).1
    rw [view_snoc, held_step _ _ (rel_after ops hc') op, ih hc']
    exact (split_snoc (P := fun e => Subscribes e s t i) (Q := fun e => ¬ Ends e s i)).symm

theorem known_iff (tr : List Obs) (s : Int) : s ∈ (view tr).known ↔
    ∃ pre e post, tr = pre ++ e :: post ∧ Joins e s ∧ ∀ e' ∈ post, ¬ Leaves e' s := by
  induction tr using snoc_induction with
  | nil => simp [view]
  | snoc tr e ih =>
    rw [split_snoc (P := fun e => Joins e s) (Q := fun e' => ¬ Leaves e' s), ← ih, view_snoc]
    obtain ⟨op, res⟩ := e
    cases op with
    | addSession d => cases res <;> simp [View.next, Joins, Leaves, or_comm, eq_comm]
    | removeSession s0 =>
      have hj : ¬ Joins (.removeSession s0, res) s := by rintro ⟨_, _, e, _⟩; cases e
      simp only [hj, false_or]
      cases res with
      | error e => simp [View.next, Leaves]
      | ok out =>
        simp only [View.next, List.mem_filter, decide_eq_true_eq]
        constructor
        · rintro ⟨h1, h2⟩
          refine ⟨h1, ?_⟩
          rintro ⟨_, e⟩; cases e; exact h2 rfl
        · rintro ⟨h1, h2⟩
          exact ⟨h1, fun e => h2 ⟨out, by rw [e]⟩⟩
    | receivePublish s0 m => cases res <;> simp [View.next, Joins, Leaves]
    | hasSubscription t0 => cases res <;> simp [View.next, Joins, Leaves]
    | receiveMessage s0 m =>
      have : ((view tr).next (.receiveMessage s0 m, res)).known = (view tr).known := by
        unfold View.next; split <;> first | rfl | (rename_i e; cases e)
      rw [this]; simp [Joins, Leaves]

end Wamp.Broker
