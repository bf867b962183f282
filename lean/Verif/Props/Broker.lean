import Verif.Proofs.BrokerView

/-!
# Broker properties C19–C29

Histories are arbitrary finite lists of API calls (`Op`) made on a fresh broker; `trace ops` is what the caller
observed, `view (trace ops)` is computed from that alone (`Spec/Broker.lean`), and `outcome ops op` is what the call
`op` returns or raises when made after `ops`.
-/

namespace Wamp.Broker
open Spec.Pub

/-! ## A worked history used by the examples -/

/-- Sessions 1, 2, 3; 1 and 2 subscribe to "a", 2 also to "b"; 3 subscribes to "a" and leaves. -/
def demo : List Op :=
  [.addSession ⟨.int 1, "r", none, none⟩, .addSession ⟨.int 2, "r", none, none⟩, .addSession ⟨.int 3, "r", none, none⟩,
   .receiveMessage 2 (.subscribe ⟨.int 1, "a", []⟩), .receiveMessage 3 (.subscribe ⟨.int 1, "a", []⟩),
   .receiveMessage 2 (.subscribe ⟨.int 2, "b", []⟩), .receiveMessage 1 (.subscribe ⟨.int 1, "a", []⟩),
   .removeSession 3]

theorem demo_view : view (trace demo) = ⟨[1, 2], [⟨2, "a", 1⟩, ⟨2, "b", 2⟩, ⟨1, "a", 1⟩], 2⟩ := by decide
theorem demo_noClash : NoClash (trace demo) := (fresh_after demo (by rw [demo_view]; decide)).1

/-! ## When ids may be reused -/

/-- Fewer than `2^53` broker calls can never make the broker hand a session an id it already holds for another topic.
This discharges the `NoClash` hypothesis below for every history anyone will ever run. -/
theorem C19_no_clash (ops : List Op) (h : ops.length ≤ 2 ^ 53) : NoClash (trace ops) :=
  (fresh_after ops (Nat.le_trans (drawn_le_length ops) h)).1

/-! ## C19 -/

/-- Exact delivery. -/
theorem C19_exact_delivery (ops : List Op) (hc : NoClash (trace ops)) (s : Int) (m : Publish)
    (hs : s ∈ (view (trace ops)).known) :
    ∃ p, outcome ops (.receivePublish s m) = .ok (.publication p) ∧
      p.recipients = (view (trace ops)).subscribers m.topic ∧ p.recipients.Nodup ∧
      (p.event = none ↔ p.recipients = []) := by
  have hr := rel_after ops hc
  have hw := wf_after ops
  have hk : (after ops).subscriptionsBySession.contains s = true := Dict.contains_iff_get.2 ((hr.known s).1 hs)
  simp only [outcome, step, receivePublish, if_pos hk]
  refine ⟨_, rfl, ?_⟩
  cases ht : (after ops).subscriptionsByTopic.get m.topic with
  | none => rw [hr.subs_none ht]; split <;> simp
  | some r =>
    rw [hr.subs_some ht]
    have := hw.top _ _ ht
    have h3 : (((after ops).heap r).subscribers.keys).Nodup := this.2.2.1
    split <;> simpa using ⟨h3, this.2.1⟩

/-- What being a subscriber means: some earlier SUBSCRIBE of `s` to `t` was answered with an id, and since then `s` has
neither unsubscribed that id nor left. -/
theorem C19_subscribers_iff (ops : List Op) (hc : NoClash (trace ops)) (s : Int) (t : String) :
    s ∈ (view (trace ops)).subscribers t ↔
      ∃ i pre e post, trace ops = pre ++ e :: post ∧ Subscribes e s t i ∧ ∀ e' ∈ post, ¬ Ends e' s i := by
  rw [mem_subscribers]
  constructor
  · rintro ⟨⟨s', t', i⟩, hx, rfl, rfl⟩; exact ⟨i, (held_iff ops _ _ i hc).1 hx⟩
  · rintro ⟨i, h⟩; exact ⟨⟨s, t, i⟩, (held_iff ops s t i hc).2 h, rfl, rfl⟩

/-- What being known means: added, and not removed since. -/
theorem C19_known_iff (tr : List Obs) (s : Int) : s ∈ (view tr).known ↔
    ∃ pre e post, tr = pre ++ e :: post ∧ Joins e s ∧ ∀ e' ∈ post, ¬ Leaves e' s := known_iff tr s

/-- A publish by a session that is not known raises `ValueError` and leaves the broker as it was. -/
theorem C19_unknown_publisher (ops : List Op) (s : Int) (m : Publish) (hs : s ∉ (view (trace ops)).known) :
    (∃ msg, outcome ops (.receivePublish s m) = .error (.valueError msg)) ∧
    after (ops ++ [.receivePublish s m]) = after ops := by
  have hk : ¬ (after ops).subscriptionsBySession.contains s = true := by
    rw [Dict.contains_iff_get]; exact fun h => hs ((known_after ops s).2 h)
  rw [after_snoc]
  simp only [outcome, step, receivePublish, if_neg hk]
  exact ⟨⟨_, rfl⟩, trivial⟩

/-- In the worked history two sessions receive, in order of subscription; a topic nobody holds gives no event. -/
example : (1 : Int) ∈ (view (trace demo)).known ∧ (view (trace demo)).subscribers "a" = [2, 1] ∧
    (view (trace demo)).subscribers "zz" = [] ∧ (9 : Int) ∉ (view (trace demo)).known := by rw [demo_view]; decide

/-! ## C20 -/

/-- The event carries the id each recipient holds for the topic, and the publisher's args and kwargs. -/
theorem C20_event_contents (ops : List Op) (hc : NoClash (trace ops)) (s : Int) (m : Publish) (p : Publication) (ev : Event)
    (hp : outcome ops (.receivePublish s m) = .ok (.publication p)) (hev : p.event = some ev) :
    ev.args = m.args ∧ ev.kwargs = m.kwargs ∧ ev.details = [] ∧
    ∀ q ∈ p.recipients, ∃ i, ev.subscriptionId = .int i ∧ (⟨q, m.topic, i⟩ : Holding) ∈ (view (trace ops)).held := by
  have hr := rel_after ops hc
  simp only [outcome, step, receivePublish] at hp
  split at hp
  · cases ht : (after ops).subscriptionsByTopic.get m.topic with
    | none => rw [ht] at hp; simp only [Except.map] at hp; split at hp <;> (cases hp; cases hev)
    | some r =>
      rw [ht] at hp
      simp only [Except.map] at hp
      have key : ev = { subscriptionId := .int ((after ops).heap r).id, publicationId := .int (after ops).idgen.next.2,
                        args := m.args, kwargs := m.kwargs } ∧ p.recipients = ((after ops).heap r).subscribers.keys := by
        split at hp <;> (cases hp; cases hev; exact ⟨rfl, by simp⟩)
      obtain ⟨rfl, hrec⟩ := key
      refine ⟨rfl, rfl, rfl, ?_⟩
      intro q hq
      rw [hrec, ← hr.subs_some ht] at hq
      obtain ⟨⟨q', t', i⟩, hx, rfl, e2⟩ := mem_subscribers.1 hq
      simp only at e2; subst e2
      obtain ⟨r', d, k1, k2, -, -⟩ := hr.ids _ hx
      rw [ht] at k1; cases k1
      exact ⟨i, by rw [k2], hx⟩
  · cases hp

/-- … and the id a session holds is the one its SUBSCRIBED reply carried. -/
theorem C20_held_id_is_replied (ops : List Op) (hc : NoClash (trace ops)) (s : Int) (t : String) (i : Int) :
    (⟨s, t, i⟩ : Holding) ∈ (view (trace ops)).held ↔
      ∃ pre e post, trace ops = pre ++ e :: post ∧ Subscribes e s t i ∧ ∀ e' ∈ post, ¬ Ends e' s i := held_iff ops s t i hc

example : ∃ p ev, outcome demo (.receivePublish 1 ⟨.int 9, "a", some [.int 5], none, []⟩) = .ok (.publication p) ∧
    p.event = some ev ∧ p.recipients = [2, 1] ∧ ev.args = some [.int 5] ∧ ev.subscriptionId = .int 1 := by
  refine ⟨_, _, rfl, rfl, ?_, ?_, ?_⟩ <;> rfl

/-! ## C21 -/

/-- All subscribers of one topic hold the same id. -/
theorem C21_topic_determines_id (ops : List Op) (hc : NoClash (trace ops)) (x y : Holding)
    (hx : x ∈ (view (trace ops)).held) (hy : y ∈ (view (trace ops)).held) (h : x.topic = y.topic) : x.id = y.id :=
  (rel_after ops hc).held_topic hx hy h

/-- Different live topics have different ids while at most `2^53` ids have been drawn. -/
theorem C21_id_determines_topic (ops : List Op) (hd : (view (trace ops)).drawn ≤ 2 ^ 53) (x y : Holding)
    (hx : x ∈ (view (trace ops)).held) (hy : y ∈ (view (trace ops)).held) (h : x.id = y.id) : x.topic = y.topic := by
  obtain ⟨hc, hf⟩ := fresh_after ops hd
  have hr := rel_after ops hc
  obtain ⟨r, d, k1, k2, -, -⟩ := hr.ids x hx
  obtain ⟨r', d', k1', k2', -, -⟩ := hr.ids y hy
  exact hf.inj _ _ _ _ k1 k1' (by rw [k2, k2', h])

/-- Every id handed out is a valid WAMP id. -/
theorem C21_ids_in_range (ops : List Op) (hd : (view (trace ops)).drawn ≤ 2 ^ 53) (x : Holding)
    (hx : x ∈ (view (trace ops)).held) : 1 ≤ x.id ∧ x.id ≤ 2 ^ 53 := by
  obtain ⟨hc, hf⟩ := fresh_after ops hd
  obtain ⟨r, d, k1, k2, -, -⟩ := (rel_after ops hc).ids x hx
  have := hf.sub _ (hf.live _ _ k1)
  rw [k2] at this; omega

example : (⟨2, "a", 1⟩ : Holding) ∈ (view (trace demo)).held ∧ (⟨1, "a", 1⟩ : Holding) ∈ (view (trace demo)).held ∧
    (⟨2, "b", 2⟩ : Holding) ∈ (view (trace demo)).held ∧ (view (trace demo)).drawn ≤ 2 ^ 53 := by rw [demo_view]; decide

/-! ## C22 -/

/-- SUBSCRIBE by a known session succeeds, with the request id of the request, addressed to that session, and from then
on the session holds the topic under the replied id; nobody else's subscriptions change. -/
theorem C22_subscribe_known (ops : List Op) (s : Int) (m : Subscribe) (hs : s ∈ (view (trace ops)).known) :
    ∃ i, outcome ops (.receiveMessage s (.subscribe m)) = .ok (.reply ⟨.subscribed ⟨m.requestId, .int i⟩, s⟩) ∧
      (view (trace (ops ++ [.receiveMessage s (.subscribe m)]))).known = (view (trace ops)).known ∧
      (∀ t, t ≠ m.topic →
        (view (trace (ops ++ [.receiveMessage s (.subscribe m)]))).subscribers t = (view (trace ops)).subscribers t) ∧
      (view (trace (ops ++ [.receiveMessage s (.subscribe m)]))).subscribers m.topic =
        (if s ∈ (view (trace ops)).subscribers m.topic then (view (trace ops)).subscribers m.topic
         else (view (trace ops)).subscribers m.topic ++ [s]) := by
  obtain ⟨d, hd⟩ := (known_after ops s).1 hs
  have h1 := subscribe_reply (after ops) s m d hd
  refine ⟨_, h1, ?_⟩
  rw [trace_snoc, view_snoc, h1]
  refine ⟨rfl, ?_, ?_⟩
  · intro t ht; exact subscribersOf_other ht _
  · exact subscribersOf_topic _

/-- SUBSCRIBE by an unknown session raises `ValueError` and changes nothing. -/
theorem C22_subscribe_unknown (ops : List Op) (s : Int) (m : Subscribe) (hs : s ∉ (view (trace ops)).known) :
    (∃ msg, outcome ops (.receiveMessage s (.subscribe m)) = .error (.valueError msg)) ∧
    after (ops ++ [.receiveMessage s (.subscribe m)]) = after ops := by
  have hk : (after ops).subscriptionsBySession.get s = none := by
    cases h : (after ops).subscriptionsBySession.get s with
    | none => rfl
    | some d => exact absurd ((known_after ops s).2 ⟨d, h⟩) hs
  rw [after_snoc]
  simp only [outcome, step, receiveMessage, receiveSubscribe, hk]
  exact ⟨⟨_, rfl⟩, trivial⟩

example : (1 : Int) ∈ (view (trace demo)).known ∧ (3 : Int) ∉ (view (trace demo)).known := by rw [demo_view]; decide

/-! ## C23 -/

/-- Subscribing again answers the id already held and changes no one's subscriptions; one UNSUBSCRIBE of it then
succeeds and ends it. -/
theorem C23_subscribe_idempotent (ops : List Op) (hc : NoClash (trace ops)) (s : Int) (t : String) (i : Int)
    (hx : (⟨s, t, i⟩ : Holding) ∈ (view (trace ops)).held) (m : Subscribe) (hm : m.topic = t)
    (u : Unsubscribe) (hu : u.subscriptionId.val = i) :
    outcome ops (.receiveMessage s (.subscribe m)) = .ok (.reply ⟨.subscribed ⟨m.requestId, .int i⟩, s⟩) ∧
    view (trace (ops ++ [.receiveMessage s (.subscribe m)])) = view (trace ops) ∧
    outcome (ops ++ [.receiveMessage s (.subscribe m)]) (.receiveMessage s (.unsubscribe u)) =
      .ok (.reply ⟨.unsubscribed ⟨u.requestId⟩, s⟩) ∧
    s ∉ (view (trace (ops ++ [.receiveMessage s (.subscribe m), .receiveMessage s (.unsubscribe u)]))).subscribers t := by
  subst hm hu
  have hr := rel_after ops hc
  have hw := wf_after ops
  obtain ⟨r, d, k1, k2, k3, k4⟩ := hr.ids _ hx
  simp only at k1 k2 k3 k4
  have h1 : outcome ops (.receiveMessage s (.subscribe m)) = .ok (.reply ⟨.subscribed ⟨m.requestId, .int u.subscriptionId.val⟩, s⟩) := by
    have := subscribe_reply (after ops) s m d k3
    rw [k1] at this; simp only [k2] at this; exact this
  have hmem : s ∈ (view (trace ops)).subscribers m.topic := mem_subscribers.2 ⟨_, hx, rfl, rfl⟩
  have hany : (view (trace ops)).held.any (·.topic = m.topic) = true := by
    rw [List.any_eq_true]; exact ⟨_, hx, by simp⟩
  have h2 : view (trace (ops ++ [.receiveMessage s (.subscribe m)])) = view (trace ops) := by
    rw [trace_snoc, view_snoc]
    have h1' : ((after ops).step (.receiveMessage s (.subscribe m))).2 = _ := h1
    rw [h1']; simp only [View.next, subscribed_same hmem, hany, if_true]
  have hc2 : NoClash (trace (ops ++ [.receiveMessage s (.subscribe m)])) := by
    rw [trace_snoc]
    refine noClash_snoc_mk hc ?_
    have h1' : ((after ops).step (.receiveMessage s (.subscribe m))).2 = _ := h1
    rw [h1']
    rintro ⟨y, hy, e1, e2, e3⟩
    have := hr.held_inj hw hy hx e1 e3
    rw [this] at e2; exact e2 rfl
  have hr2 := rel_after _ hc2
  rw [h2] at hr2
  obtain ⟨r', d', j1, j2, j3, j4⟩ := hr2.ids _ hx
  have h3 : outcome (ops ++ [.receiveMessage s (.subscribe m)]) (.receiveMessage s (.unsubscribe u)) =
      .ok (.reply ⟨.unsubscribed ⟨u.requestId⟩, s⟩) := by
    simp only [outcome, step, receiveMessage, unsubscribe_ok _ (wf_after _) s u d' r' j3 j4]; rfl
  refine ⟨h1, h2, h3, ?_⟩
  have hsplit : ops ++ [.receiveMessage s (.subscribe m), .receiveMessage s (.unsubscribe u)] =
      (ops ++ [.receiveMessage s (.subscribe m)]) ++ [.receiveMessage s (.unsubscribe u)] := by simp
  rw [hsplit, trace_snoc, view_snoc, h2]
  have h3' : ((after (ops ++ [.receiveMessage s (.subscribe m)])).step (.receiveMessage s (.unsubscribe u))).2 = _ := h3
  rw [h3', mem_subscribers]
  rintro ⟨y, hy, e1, e2⟩
  simp only [View.next, List.mem_filter, decide_eq_true_eq] at hy
  have := hr.held_topic hy.1 hx e2
  exact hy.2 ⟨e1, this⟩

example : (⟨2, "a", 1⟩ : Holding) ∈ (view (trace demo)).held ∧ NoClash (trace demo) :=
  ⟨by rw [demo_view]; decide, demo_noClash⟩

/-! ## C24 -/

/-- UNSUBSCRIBE of an id the session holds succeeds, answers the request to that session and ends exactly that
subscription. -/
theorem C24_unsubscribe_held (ops : List Op) (hc : NoClash (trace ops)) (s : Int) (t : String) (u : Unsubscribe)
    (hx : (⟨s, t, u.subscriptionId.val⟩ : Holding) ∈ (view (trace ops)).held) :
    outcome ops (.receiveMessage s (.unsubscribe u)) = .ok (.reply ⟨.unsubscribed ⟨u.requestId⟩, s⟩) ∧
    (view (trace (ops ++ [.receiveMessage s (.unsubscribe u)]))).known = (view (trace ops)).known ∧
    (∀ y, y ∈ (view (trace (ops ++ [.receiveMessage s (.unsubscribe u)]))).held ↔
      y ∈ (view (trace ops)).held ∧ y ≠ ⟨s, t, u.subscriptionId.val⟩) := by
  have hr := rel_after ops hc
  have hw := wf_after ops
  obtain ⟨r, d, k1, k2, k3, k4⟩ := hr.ids _ hx
  have h1 : ((after ops).step (.receiveMessage s (.unsubscribe u))).2 = .ok (.reply ⟨.unsubscribed ⟨u.requestId⟩, s⟩) := by
    simp only [step, receiveMessage, unsubscribe_ok _ hw s u d r k3 k4]; rfl
  rw [trace_snoc, view_snoc, h1]
  refine ⟨h1, rfl, ?_⟩
  intro y
  simp only [View.next, List.mem_filter, decide_eq_true_eq]
  constructor
  · rintro ⟨h1, h2⟩; exact ⟨h1, fun e => h2 (by rw [e]; exact ⟨rfl, rfl⟩)⟩
  · rintro ⟨h1, h2⟩; exact ⟨h1, fun e => h2 (hr.held_inj hw h1 hx e.1 e.2)⟩

/-- UNSUBSCRIBE of an id the session does not hold (or by an unknown session) raises `ValueError` and changes nothing. -/
theorem C24_unsubscribe_not_held (ops : List Op) (hc : NoClash (trace ops)) (s : Int) (u : Unsubscribe)
    (hx : ∀ t, (⟨s, t, u.subscriptionId.val⟩ : Holding) ∉ (view (trace ops)).held) :
    (∃ msg, outcome ops (.receiveMessage s (.unsubscribe u)) = .error (.valueError msg)) ∧
    after (ops ++ [.receiveMessage s (.unsubscribe u)]) = after ops := by
  have hr := rel_after ops hc
  have hw := wf_after ops
  rw [after_snoc]
  cases hs : (after ops).subscriptionsBySession.get s with
  | none => simp only [outcome, step, receiveMessage, receiveUnsubscribe, hs]; exact ⟨⟨_, rfl⟩, trivial⟩
  | some d =>
    cases hd : d.get u.subscriptionId.val with
    | none => simp only [outcome, step, receiveMessage, receiveUnsubscribe, hs, hd]; exact ⟨⟨_, rfl⟩, trivial⟩
    | some r => exact absurd (hr.holding hw hs hd) (hx _)

example : (⟨2, "a", (PyInt.int 1).val⟩ : Holding) ∈ (view (trace demo)).held ∧
    ∀ t, (⟨1, t, (PyInt.int 2).val⟩ : Holding) ∉ (view (trace demo)).held := by
  rw [demo_view]; exact ⟨by decide, by simp [PyInt.val]⟩

/-! ## C25 -/

/-- `remove_session` of a known session succeeds and ends all its subscriptions and no others. -/
theorem C25_remove_known (ops : List Op) (s : Int) (hs : s ∈ (view (trace ops)).known) :
    outcome ops (.removeSession s) = .ok .unit ∧
    (∀ s', s' ∈ (view (trace (ops ++ [.removeSession s]))).known ↔ s' ∈ (view (trace ops)).known ∧ s' ≠ s) ∧
    (∀ y, y ∈ (view (trace (ops ++ [.removeSession s]))).held ↔ y ∈ (view (trace ops)).held ∧ y.session ≠ s) := by
  obtain ⟨d, hd⟩ := (known_after ops s).1 hs
  obtain ⟨b', k1, -⟩ := removeSession_ok _ (wf_after ops) s d hd
  have h1 : ((after ops).step (.removeSession s)).2 = .ok .unit := by simp only [step, k1]; rfl
  rw [trace_snoc, view_snoc, h1]
  refine ⟨h1, ?_, ?_⟩ <;> intro y <;> simp [View.next]

/-- `remove_session` of an unknown session raises `ValueError` and changes nothing. -/
theorem C25_remove_unknown (ops : List Op) (s : Int) (hs : s ∉ (view (trace ops)).known) :
    (∃ msg, outcome ops (.removeSession s) = .error (.valueError msg)) ∧ after (ops ++ [.removeSession s]) = after ops := by
  have hk : (after ops).subscriptionsBySession.get s = none := by
    cases h : (after ops).subscriptionsBySession.get s with
    | none => rfl
    | some d => exact absurd ((known_after ops s).2 ⟨d, h⟩) hs
  rw [after_snoc]
  simp only [outcome, step, removeSession, hk]
  exact ⟨⟨_, rfl⟩, trivial⟩

/-- Once removed, a session receives nothing, whatever the other sessions do, until it is added again and subscribes
again. -/
theorem C25_never_recipient (ops later : List Op) (s : Int) (hs : s ∈ (view (trace ops)).known)
    (hc : NoClash (trace (ops ++ .removeSession s :: later)))
    (hl : (∀ d, .addSession d ∈ later → d.sessionId.val ≠ s) ∨ (∀ m, .receiveMessage s (.subscribe m) ∉ later))
    (q : Int) (m : Publish) (p : Publication)
    (hp : outcome (ops ++ .removeSession s :: later) (.receivePublish q m) = .ok (.publication p)) :
    s ∉ p.recipients := by
  have key : ∀ later : List Op, NoClash (trace (ops ++ .removeSession s :: later)) →
      ((∀ d, .addSession d ∈ later → d.sessionId.val ≠ s) ∨ (∀ m, .receiveMessage s (.subscribe m) ∉ later)) →
      ((∀ d, .addSession d ∈ later → d.sessionId.val ≠ s) → s ∉ (view (trace (ops ++ .removeSession s :: later))).known) ∧
      ∀ y ∈ (view (trace (ops ++ .removeSession s :: later))).held, y.session ≠ s := by
    intro later
    induction later using snoc_induction with
    | nil =>
      intro _ _
      have := C25_remove_known ops s hs
      exact ⟨fun _ h => ((this.2.1 s).1 h).2 rfl, fun y hy => ((this.2.2 y).1 hy).2⟩
    | snoc later op ih =>
      intro hc hl
      have e : ops ++ .removeSession s :: (later ++ [op]) = (ops ++ .removeSession s :: later) ++ [op] := by simp
      rw [e, trace_snoc] at hc
      rw [e]
      have hc' := (noClash_snoc hc).1
      have hl' : (∀ d, .addSession d ∈ later → d.sessionId.val ≠ s) ∨ (∀ m, .receiveMessage s (.subscribe m) ∉ later) := by
        rcases hl with hl | hl
        · exact .inl fun d hd => hl d (by simp [hd])
        · exact .inr fun m hm => hl m (by simp [hm])
      obtain ⟨i1, i2⟩ := ih hc' hl'
      have hk : (∀ d, .addSession d ∈ later ++ [op] → d.sessionId.val ≠ s) →
          s ∉ (view (trace ((ops ++ .removeSession s :: later) ++ [op]))).known := by
        intro hl hks
        rw [known_iff, trace_snoc] at hks
        rw [split_snoc (P := fun e => Joins e s) (Q := fun e' => ¬ Leaves e' s), ← known_iff] at hks
        rcases hks with ⟨d, out, e, hd⟩ | ⟨h1, -⟩
        · injection e with e1 e2
          exact hl d (by rw [← e1]; simp) hd
        · exact i1 (fun d hd => hl d (by simp [hd])) h1
      refine ⟨hk, ?_⟩
      rintro ⟨s', t, i⟩ hy rfl
      rcases hl with hl | hl
      · have hc2 : NoClash (trace ((ops ++ .removeSession s' :: later) ++ [op])) := by rw [trace_snoc]; exact hc
        obtain ⟨r, d, k1, k2, k3, k4⟩ := (rel_after _ hc2).ids _ hy
        exact hk hl ((known_after _ _).2 ⟨d, k3⟩)
      · rw [trace_snoc, view_snoc, held_step _ _ (rel_after _ hc')] at hy
        rcases hy with ⟨m, r, rec, e, -⟩ | ⟨h1, -⟩
        · injection e with e1 e2
          exact hl m (by rw [← e1]; simp)
        · exact i2 _ h1 rfl
  have hh := (key later hc hl).2
  have hr := rel_after _ hc
  by_cases hq : q ∈ (view (trace (ops ++ .removeSession s :: later))).known
  · obtain ⟨p', e1, e2, -⟩ := C19_exact_delivery _ hc q m hq
    rw [hp] at e1; cases e1
    rw [e2, mem_subscribers]
    rintro ⟨y, hy, e, -⟩
    exact hh y hy e
  · obtain ⟨⟨msg, e⟩, -⟩ := C19_unknown_publisher _ q m hq
    rw [hp] at e; cases e

/-- The hypotheses are met with calls that matter in between: session 2 leaves, session 1 publishes. -/
example : (2 : Int) ∈ (view (trace demo)).known ∧
    NoClash (trace (demo ++ .removeSession 2 :: [.addSession ⟨.int 2, "r", none, none⟩, .receiveMessage 1 (.subscribe ⟨.int 1, "b", []⟩)])) ∧
    ∃ p, outcome (demo ++ .removeSession 2 :: [.addSession ⟨.int 2, "r", none, none⟩, .receiveMessage 1 (.subscribe ⟨.int 1, "b", []⟩)])
      (.receivePublish 2 ⟨.int 3, "a", none, none, []⟩) = .ok (.publication p) ∧ p.recipients = [1] := by
  refine ⟨by rw [demo_view]; decide, C19_no_clash _ (by decide), _, rfl, rfl⟩

/-! ## C26 -/

/-- `has_subscription(t)` says whether a publish to `t` has a recipient; it holds after every history, wrapped ids or not. -/
theorem C26_has_subscription (ops : List Op) (t : String) :
    ∃ r, outcome ops (.hasSubscription t) = .ok (.bool r) ∧
      (∀ s m p, m.topic = t → outcome ops (.receivePublish s m) = .ok (.publication p) → (r = true ↔ p.recipients ≠ [])) ∧
      (NoClash (trace ops) → (r = true ↔ ∃ s, s ∈ (view (trace ops)).subscribers t)) := by
  have hw := wf_after ops
  refine ⟨_, rfl, ?_, ?_⟩
  · rintro s m p rfl hp
    simp only [outcome, step, receivePublish] at hp
    split at hp
    · simp only [hasSubscription, Dict.contains_iff_get]
      cases ht : (after ops).subscriptionsByTopic.get m.topic with
      | none => rw [ht] at hp; simp only [Except.map] at hp; split at hp <;> (cases hp; simp)
      | some r =>
        rw [ht] at hp
        have := (hw.top _ _ ht).2.1
        simp only [Except.map] at hp; split at hp <;> (cases hp; simpa using this)
    · cases hp
  · intro hc
    have hr := rel_after ops hc
    simp only [hasSubscription, Dict.contains_iff_get]
    cases ht : (after ops).subscriptionsByTopic.get t with
    | none => rw [hr.subs_none ht]; simp
    | some r =>
      rw [hr.subs_some ht]
      have := (hw.top _ _ ht).2.1
      simpa using List.exists_mem_of_ne_nil _ this

/-- Both answers occur; "b" was held only by session 2. -/
example : outcome demo (.hasSubscription "b") = .ok (.bool true) ∧
    outcome (demo ++ [.removeSession 2]) (.hasSubscription "b") = .ok (.bool false) := ⟨rfl, rfl⟩

/-! ## C27 -/

theorem flag_iff (d : PyDict) (k : String) : PyDict.flag d k = true ↔ ∃ v, PyDict.get? d k = some v ∧ v.truthy = true := by
  unfold PyDict.flag; split <;> simp_all

/-- The acknowledgement. -/
theorem C27_acknowledge (ops : List Op) (s : Int) (m : Publish) (p : Publication)
    (hp : outcome ops (.receivePublish s m) = .ok (.publication p)) :
    (p.ack.isSome ↔ ∃ v, PyDict.get? m.options "acknowledge" = some v ∧ v.truthy = true) ∧
    ∀ a, p.ack = some a → a.recipient = s ∧
      ∃ i, a.message = .published ⟨m.requestId, .int i⟩ ∧ ∀ ev, p.event = some ev → ev.publicationId = .int i := by
  rw [← flag_iff]
  simp only [outcome, step, receivePublish] at hp
  split at hp
  · simp only [Except.map] at hp
    cases hf : PyDict.flag m.options "acknowledge" <;> rw [hf] at hp <;>
    cases ht : (after ops).subscriptionsByTopic.get m.topic <;> rw [ht] at hp <;> cases hp <;> simp
  · cases hp

example : ∃ p a, outcome demo (.receivePublish 1 ⟨.int 9, "a", none, none, [(.str "acknowledge", .int 1)]⟩) = .ok (.publication p) ∧
    p.ack = some a ∧ a.message = .published ⟨.int 9, .int 3⟩ := ⟨_, _, rfl, rfl, rfl⟩

/-! ## C28 -/

/-- Publication ids shown during one history are pairwise different and differ from every subscription id shown, as
long as at most `2^53` ids are drawn. -/
theorem C28_publication_ids (ops : List Op) (hd : (view (trace ops)).drawn ≤ 2 ^ 53) :
    ((trace ops).filterMap pubId?).Nodup ∧
    ∀ i ∈ (trace ops).filterMap pubId?, i ∉ (trace ops).filterMap subId? := by
  have hf := (fresh_after ops hd).2
  exact ⟨hf.nodup, hf.disj⟩

/-- In particular for every history of at most `2^53` calls. -/
theorem C28_publication_ids_short (ops : List Op) (h : ops.length ≤ 2 ^ 53) :
    ((trace ops).filterMap pubId?).Nodup ∧
    ∀ i ∈ (trace ops).filterMap pubId?, i ∉ (trace ops).filterMap subId? :=
  C28_publication_ids ops (Nat.le_trans (drawn_le_length ops) h)

def demoPub : List Op := demo ++ [.receivePublish 1 ⟨.int 9, "a", none, none, []⟩, .receivePublish 2 ⟨.int 9, "b", none, none, []⟩]
example : (trace demoPub).filterMap pubId? = [3, 4] ∧ (trace demoPub).filterMap subId? = [1, 1, 2, 1] := by decide

/-! ## C29 -/

/-- Whenever a call raises it raises `ValueError`, and everything observed later is what would have been observed
without it. -/
theorem C29_failures_are_atomic (ops later : List Op) (op : Op) (e : Exc) (he : outcome ops op = .error e) :
    (∃ msg, e = .valueError msg) ∧
    ∃ tl, trace (ops ++ later) = trace ops ++ tl ∧ trace (ops ++ op :: later) = trace ops ++ (op, .error e) :: tl := by
  rcases step_spec (after ops) (wf_after ops) op with ⟨out, h, -⟩ | ⟨msg, h⟩
  · rw [outcome, h] at he; cases he
  · rw [outcome, h] at he; cases he
    refine ⟨⟨msg, rfl⟩, ((after ops).runFrom later).2, ?_, ?_⟩
    · simp only [trace, runFrom_append, after]
    · simp only [trace, runFrom_append, runFrom]
      have h' : ((init.runFrom ops).1).step op = ((init.runFrom ops).1, .error (.valueError msg)) := h
      rw [h']; rfl

/-- Failing calls of every kind exist. -/
example : (∃ e, outcome demo (.addSession ⟨.int 1, "r", none, none⟩) = .error e) ∧
    (∃ e, outcome demo (.removeSession 3) = .error e) ∧
    (∃ e, outcome demo (.receiveMessage 1 (.unsubscribe ⟨.int 1, .int 2⟩)) = .error e) ∧
    (∃ e, outcome demo (.receiveMessage 1 (.goodbye ⟨[], "x"⟩)) = .error e) ∧
    (∃ e, outcome demo (.receivePublish 3 ⟨.int 9, "a", none, none, []⟩) = .error e) :=
  ⟨⟨_, rfl⟩, ⟨_, rfl⟩, ⟨_, rfl⟩, ⟨_, rfl⟩, ⟨_, rfl⟩⟩

end Wamp.Broker
