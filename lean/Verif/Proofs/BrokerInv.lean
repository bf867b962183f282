import Verif.Model.Broker
import Verif.Proofs.DictLemmas

/-! # Broker invariant -/

namespace Wamp.Broker

/-- The data structure invariant of the broker, kept by every call. -/
structure Wf (b : Broker) : Prop where
  top : ∀ t r, b.subscriptionsByTopic.get t = some r →
    (b.heap r).topic = t ∧ (b.heap r).subscribers.keys ≠ [] ∧ (b.heap r).subscribers.Wf ∧ r < b.nextRef
  ses : ∀ s d, b.subscriptionsBySession.get s = some d → d.Wf ∧ ∀ i r, d.get i = some r →
    (b.heap r).id = i ∧ s ∈ (b.heap r).subscribers.keys ∧ b.subscriptionsByTopic.get (b.heap r).topic = some r
  reg : ∀ s, b.sessions.contains s = b.subscriptionsBySession.contains s

theorem wf_init : Wf init := by
  refine ⟨?_, ?_, ?_⟩
  · intro t r h; simp [init] at h
  · intro t r h; simp [init] at h
  · intro s; rfl

/-- The object with `s` taken out. -/
def _root_.Wamp.Subscription.without (o : Subscription) (s : Int) : Subscription := ⟨o.id, o.topic, o.subscribers.del s⟩

/-- Taking `s` out of the object behind `r`, and the topic out of the index if nobody is left. -/
def drop (b : Broker) (r : Ref) (s : Int) : Broker :=
  let b1 := b.write r ((b.heap r).without s)
  if ((b.heap r).subscribers.del s).size = 0 then
    { b1 with subscriptionsByTopic := b1.subscriptionsByTopic.del (b.heap r).topic } else b1

theorem drop_heap (b : Broker) (r : Ref) (s : Int) (r' : Ref) : (b.drop r s).heap r' =
    if r' = r then ((b.heap r).without s) else b.heap r' := by
  unfold drop write; simp only; split <;> rfl

theorem drop_topic (b : Broker) (r : Ref) (s : Int) (t : String) : (b.drop r s).subscriptionsByTopic.get t =
    if (b.heap r).topic = t ∧ ((b.heap r).subscribers.del s).keys = [] then none else b.subscriptionsByTopic.get t := by
  unfold drop write; simp only [Dict.size_eq_zero]
  split
  · rename_i h; simp [h]
  · rename_i h; simp [h]

theorem drop_rest (b : Broker) (r : Ref) (s : Int) : (b.drop r s).subscriptionsBySession = b.subscriptionsBySession ∧
    (b.drop r s).sessions = b.sessions ∧ (b.drop r s).idgen = b.idgen ∧ (b.drop r s).nextRef = b.nextRef := by
  unfold drop write; simp only; split <;> simp

theorem removeLoop_cons (b : Broker) (s : Int) (i : Int) (r : Ref) (rest : List (Int × Ref))
    (h1 : b.subscriptionsByTopic.get (b.heap r).topic = some r) (h2 : s ∈ (b.heap r).subscribers.keys) :
    b.removeLoop s ((i, r) :: rest) = (b.drop r s).removeLoop s rest := by
  have h3 : (b.heap r).subscribers.contains s = true := Dict.contains_iff.2 h2
  have h4 : b.subscriptionsByTopic.contains (b.heap r).topic = true := Dict.contains_iff_get.2 ⟨_, h1⟩
  simp only [removeLoop, h1, h3, if_true]
  rw [if_neg (by simp [write, h4])]
  unfold drop; simp only [Subscription.without]

/-- What the removal loop does, in closed form. -/
theorem removeLoop_ok (s : Int) (l : List (Int × Ref)) : ∀ (b : Broker),
    (∀ p ∈ l, b.subscriptionsByTopic.get (b.heap p.2).topic = some p.2 ∧ s ∈ (b.heap p.2).subscribers.keys) →
    (l.map (·.2)).Nodup →
    ∃ b', b.removeLoop s l = (b', .ok ()) ∧ b'.subscriptionsBySession = b.subscriptionsBySession ∧
      b'.sessions = b.sessions ∧ b'.idgen = b.idgen ∧ b'.nextRef = b.nextRef ∧
      (∀ r, b'.heap r = if r ∈ l.map (·.2) then ((b.heap r).without s) else b.heap r) ∧
      (∀ t r, b'.subscriptionsByTopic.get t = some r ↔
        b.subscriptionsByTopic.get t = some r ∧
          ¬ ((b.heap r).topic = t ∧ r ∈ l.map (·.2) ∧ ((b.heap r).subscribers.del s).keys = [])) := by
  induction l with
  | nil => intro b _ _; exact ⟨b, rfl, rfl, rfl, rfl, rfl, by simp, by simp⟩
  | cons p rest ih =>
    intro b hl hnd
    obtain ⟨i, r⟩ := p
    obtain ⟨h1, h2⟩ := hl (i, r) (by simp)
    simp only at h1 h2
    simp only [List.map_cons, List.nodup_cons] at hnd
    rw [removeLoop_cons b s i r rest h1 h2]
    have hne : ∀ p ∈ rest, p.2 ≠ r := by rintro p hp rfl; exact hnd.1 (List.mem_map.2 ⟨p, hp, rfl⟩)
    obtain ⟨e1, e2, e3, e4⟩ := drop_rest b r s
    obtain ⟨b', k1, k2, k3, k4, k5, k6, k7⟩ := ih (b.drop r s) (by
      intro p hp
      have hp' := hl p (List.mem_cons_of_mem _ hp)
      rw [drop_heap, if_neg (hne p hp), drop_topic]
      refine ⟨?_, hp'.2⟩
      rw [if_neg]
      · exact hp'.1
      · rintro ⟨ht, -⟩
        rw [ht, hp'.1] at h1
        exact hne p hp (by simpa using h1)) hnd.2
    refine ⟨b', k1, k2.trans e1, k3.trans e2, k4.trans e3, k5.trans e4, ?_, ?_⟩
    · intro r'
      rw [k6 r', drop_heap]
      by_cases hr : r' = r
      · subst hr; simp [hnd.1]
      · simp only [hr, if_false, List.map_cons, List.mem_cons, false_or]
    · intro t r'
      rw [k7 t r', drop_heap, drop_topic]
      by_cases hr : r' = r
      · subst hr
        simp only [hnd.1, false_and, and_false, not_false_eq_true, and_true, List.map_cons, List.mem_cons, true_or, true_and]
        split
        · rename_i h; simp [h]
        · rename_i h; simp [h]
      · simp only [hr, if_false, List.map_cons, List.mem_cons, false_or]
        split
        · rename_i h
          simp only [reduceCtorEq, false_and, false_iff]
          rintro ⟨h5, -⟩
          rw [← h.1, h1] at h5
          exact hr (by simpa using h5.symm)
        · rfl

/-- Removing a known session, in closed form. -/
theorem removeSession_ok (b : Broker) (hb : b.Wf) (s : Int) (d : Dict Int Ref)
    (hs : b.subscriptionsBySession.get s = some d) :
    ∃ b', b.removeSession s = (b', .ok ()) ∧ b'.subscriptionsBySession = b.subscriptionsBySession.del s ∧
      b'.sessions = b.sessions.del s ∧ b'.idgen = b.idgen ∧ b'.nextRef = b.nextRef ∧
      (∀ r, (∃ i, d.get i = some r) → b'.heap r = (b.heap r).without s) ∧
      (∀ r, ¬ (∃ i, d.get i = some r) → b'.heap r = b.heap r) ∧
      (∀ t r, b'.subscriptionsByTopic.get t = some r ↔
        b.subscriptionsByTopic.get t = some r ∧
          ¬ ((∃ i, d.get i = some r) ∧ ((b.heap r).subscribers.del s).keys = [])) := by
  obtain ⟨hd, hi⟩ := hb.ses s d hs
  have hmem : ∀ r, r ∈ d.items.map (·.2) ↔ ∃ i, d.get i = some r := by
    intro r
    simp only [List.mem_map]
    constructor
    · rintro ⟨⟨i, r'⟩, h, rfl⟩; exact ⟨i, hd.mem_items.1 h⟩
    · rintro ⟨i, h⟩; exact ⟨(i, r), hd.mem_items.2 h, rfl⟩
  obtain ⟨b', k1, k2, k3, k4, k5, k6, k7⟩ := removeLoop_ok s d.items
    { b with subscriptionsBySession := b.subscriptionsBySession.del s }
    (by
      rintro ⟨i, r⟩ hp
      obtain ⟨-, h2, h3⟩ := hi i r (hd.mem_items.1 hp)
      exact ⟨h3, h2⟩)
    (by
      have : d.items.map (fun p => (b.heap p.2).id) = d.keys := by
        apply List.map_congr_left
        rintro ⟨i, r⟩ hp
        exact (hi i r (hd.mem_items.1 hp)).1
      have h : (d.items.map (fun p => (b.heap p.2).id)).Nodup := this ▸ hd
      rw [List.Nodup, List.pairwise_map] at h ⊢
      exact h.imp (by intro p q h e; exact h (by rw [e])))
  refine ⟨{ b' with sessions := b'.sessions.del s }, ?_, k2, by rw [k3], k4, k5, ?_, ?_, ?_⟩
  · have : b'.sessions.contains s = true := by
      rw [k3]; simp only; rw [hb.reg, Dict.contains_iff_get]; exact ⟨d, hs⟩
    simp only [removeSession, hs, k1, this, if_true]
  · intro r hr; rw [k6 r, if_pos ((hmem r).2 hr)]
  · intro r hr; rw [k6 r, if_neg (fun h => hr ((hmem r).1 h))]
  · intro t r
    simp only [k7 t r, hmem]
    constructor
    · rintro ⟨h1, h2⟩; exact ⟨h1, fun h => h2 ⟨(hb.top t r h1).1, h⟩⟩
    · rintro ⟨h1, h2⟩; exact ⟨h1, fun h => h2 h.2⟩

theorem wf_removeSession (b : Broker) (hb : b.Wf) (s : Int) (d : Dict Int Ref)
    (hs : b.subscriptionsBySession.get s = some d) : (b.removeSession s).1.Wf := by
  obtain ⟨b', k1, k2, k3, k4, k5, k6, k6', k7⟩ := removeSession_ok b hb s d hs
  rw [k1]; simp only
  refine ⟨?_, ?_, ?_⟩
  · intro t r h
    rw [k7] at h
    obtain ⟨h1, h2⟩ := h
    obtain ⟨t1, t2, t3, t4⟩ := hb.top t r h1
    rw [k5]
    by_cases hr : ∃ i, d.get i = some r
    · rw [k6 r hr]
      exact ⟨t1, fun e => h2 ⟨hr, e⟩, t3.del s, t4⟩
    · rw [k6' r hr]; exact ⟨t1, t2, t3, t4⟩
  · intro s' d' h
    rw [k2, Dict.get_del] at h
    split at h
    · cases h
    · rename_i hne
      obtain ⟨hd, hi⟩ := hb.ses s' d' h
      refine ⟨hd, fun i r hr => ?_⟩
      obtain ⟨h1, h2, h3⟩ := hi i r hr
      have hk : s' ∈ ((b.heap r).subscribers.del s).keys := by
        rw [Dict.keys_del, List.mem_filter]; exact ⟨h2, by simpa using fun e : s' = s => hne e.symm⟩
      rw [k7]
      by_cases hr : ∃ i, d.get i = some r
      · rw [k6 r hr]
        refine ⟨h1, hk, h3, ?_⟩
        rintro ⟨-, e⟩; rw [e] at hk; cases hk
      · rw [k6' r hr]
        exact ⟨h1, h2, h3, fun h => hr h.1⟩
  · intro s'
    have := hb.reg s'
    rw [k2, k3]
    simp only [Dict.contains, Dict.get_del]
    split
    · rfl
    · exact this

/-! ## Subscribe -/

/-- SUBSCRIBE by a known session to a topic nobody holds. -/
theorem subscribe_new (b : Broker) (s : Int) (m : Subscribe) (d : Dict Int Ref)
    (hs : b.subscriptionsBySession.get s = some d) (ht : b.subscriptionsByTopic.get m.topic = none) :
    b.receiveSubscribe s m =
      ({ heap := fun r => if r = b.nextRef then ⟨b.idgen.next.2, m.topic, Dict.empty.set s s⟩ else b.heap r
         nextRef := b.nextRef + 1
         subscriptionsByTopic := b.subscriptionsByTopic.set m.topic b.nextRef
         subscriptionsBySession := b.subscriptionsBySession.set s (d.set b.idgen.next.2 b.nextRef)
         sessions := b.sessions
         idgen := b.idgen.next.1 },
       .ok ⟨.subscribed ⟨m.requestId, .int b.idgen.next.2⟩, s⟩) := by
  simp only [receiveSubscribe, hs, ht, alloc, if_true]

/-- SUBSCRIBE by a known session to a topic somebody holds. -/
theorem subscribe_old (b : Broker) (s : Int) (m : Subscribe) (d : Dict Int Ref) (r : Ref)
    (hs : b.subscriptionsBySession.get s = some d) (ht : b.subscriptionsByTopic.get m.topic = some r) :
    b.receiveSubscribe s m =
      ({ b with
         heap := fun r' => if r' = r then ⟨(b.heap r).id, (b.heap r).topic, (b.heap r).subscribers.set s s⟩ else b.heap r'
         subscriptionsBySession := b.subscriptionsBySession.set s (d.set (b.heap r).id r) },
       .ok ⟨.subscribed ⟨m.requestId, .int (b.heap r).id⟩, s⟩) := by
  simp only [receiveSubscribe, hs, ht, write, if_true]

theorem wf_subscribe (b : Broker) (hb : b.Wf) (s : Int) (m : Subscribe) (d : Dict Int Ref)
    (hs : b.subscriptionsBySession.get s = some d) : (b.receiveSubscribe s m).1.Wf := by
  have hreg : ∀ (x : Dict Int Ref) (s' : Int),
      (b.subscriptionsBySession.set s x).contains s' = b.subscriptionsBySession.contains s' := by
    intro x s'; simp only [Dict.contains, Dict.get_set]
    split
    · rename_i e; subst e; simp [hs]
    · rfl
  cases ht : b.subscriptionsByTopic.get m.topic with
  | none =>
    rw [subscribe_new b s m d hs ht]
    have hlt : ∀ t r, b.subscriptionsByTopic.get t = some r → r ≠ b.nextRef := by
      intro t r h e; have := (hb.top t r h).2.2.2; rw [e] at this; exact Nat.lt_irrefl _ this
    refine ⟨?_, ?_, ?_⟩
    · intro t r h
      simp only [Dict.get_set] at h ⊢
      split at h
      · rename_i e; subst e; cases h
        simp only [if_true]
        exact ⟨trivial, by rw [Dict.keys_single]; simp, Dict.wf_empty.set s s, Nat.lt_succ_self _⟩
      · rw [if_neg (hlt t r h)]
        obtain ⟨a1, a2, a3, a4⟩ := hb.top t r h
        exact ⟨a1, a2, a3, Nat.lt_succ_of_lt a4⟩
    · have old : ∀ s' d' i r, b.subscriptionsBySession.get s' = some d' → d'.get i = some r →
          r ≠ b.nextRef ∧ (b.heap r).id = i ∧ s' ∈ (b.heap r).subscribers.keys ∧
          (b.subscriptionsByTopic.set m.topic b.nextRef).get (b.heap r).topic = some r := by
        intro s' d' i r h1 h2
        obtain ⟨h3, h4, h5⟩ := (hb.ses s' d' h1).2 i r h2
        refine ⟨hlt _ _ h5, h3, h4, ?_⟩
        rw [Dict.get_set, if_neg]
        · exact h5
        · intro e; rw [← e, ht] at h5; cases h5
      intro s' d' h
      simp only [Dict.get_set] at h ⊢
      split at h
      · rename_i e; subst e; cases h
        refine ⟨(hb.ses s d hs).1.set _ _, ?_⟩
        intro i r h
        rw [Dict.get_set] at h
        split at h
        · rename_i e; subst e; cases h
          simp [Dict.keys_single]
        · obtain ⟨a1, a2, a3, a4⟩ := old s d i r hs h
          rw [if_neg a1]; exact ⟨a2, a3, by simpa using a4⟩
      · refine ⟨(hb.ses s' d' h).1, ?_⟩
        intro i r hr
        obtain ⟨a1, a2, a3, a4⟩ := old s' d' i r h hr
        rw [if_neg a1]; exact ⟨a2, a3, by simpa using a4⟩
    · intro s'; simp only [hreg]; exact hb.reg s'
  | some r0 =>
    rw [subscribe_old b s m d r0 hs ht]
    obtain ⟨o1, o2, o3, o4⟩ := hb.top m.topic r0 ht
    have hmem : ∀ s', s' ∈ (b.heap r0).subscribers.keys → s' ∈ ((b.heap r0).subscribers.set s s).keys := by
      intro s' h; rw [Dict.keys_set]; split
      · exact h
      · exact List.mem_append_left _ h
    have hmem' : s ∈ ((b.heap r0).subscribers.set s s).keys := by
      rw [Dict.mem_keys]; exact ⟨s, by simp⟩
    refine ⟨?_, ?_, ?_⟩
    · intro t r h
      simp only at h ⊢
      obtain ⟨a1, a2, a3, a4⟩ := hb.top t r h
      split
      · rename_i e; subst e
        exact ⟨a1, List.ne_nil_of_mem hmem', a3.set s s, a4⟩
      · exact ⟨a1, a2, a3, a4⟩
    · have old : ∀ s' d' i r, b.subscriptionsBySession.get s' = some d' → d'.get i = some r →
          (if r = r0 then ⟨(b.heap r0).id, (b.heap r0).topic, (b.heap r0).subscribers.set s s⟩ else b.heap r).id = i ∧
          s' ∈ (if r = r0 then ⟨(b.heap r0).id, (b.heap r0).topic, (b.heap r0).subscribers.set s s⟩ else b.heap r : Subscription).subscribers.keys ∧
          b.subscriptionsByTopic.get (if r = r0 then ⟨(b.heap r0).id, (b.heap r0).topic, (b.heap r0).subscribers.set s s⟩ else b.heap r : Subscription).topic = some r := by
        intro s' d' i r h1 h2
        obtain ⟨h3, h4, h5⟩ := (hb.ses s' d' h1).2 i r h2
        split
        · rename_i e; subst e; exact ⟨h3, hmem s' h4, h5⟩
        · exact ⟨h3, h4, h5⟩
      intro s' d' h
      simp only [Dict.get_set] at h ⊢
      split at h
      · rename_i e; subst e; cases h
        refine ⟨(hb.ses s d hs).1.set _ _, ?_⟩
        intro i r h
        rw [Dict.get_set] at h
        split at h
        · rename_i e; subst e; cases h
          simp only [if_true]
          exact ⟨trivial, hmem', by rw [o1, ht]⟩
        · exact old s d i r hs h
      · exact ⟨(hb.ses s' d' h).1, fun i r hr => old s' d' i r h hr⟩
    · intro s'; simp only [hreg]; exact hb.reg s'

/-! ## Unsubscribe -/

/-- UNSUBSCRIBE of a held subscription. -/
theorem unsubscribe_ok (b : Broker) (hb : b.Wf) (s : Int) (m : Unsubscribe) (d : Dict Int Ref) (r : Ref)
    (hs : b.subscriptionsBySession.get s = some d) (hr : d.get m.subscriptionId.val = some r) :
    b.receiveUnsubscribe s m =
      ({ b.drop r s with subscriptionsBySession := b.subscriptionsBySession.set s (d.del m.subscriptionId.val) },
       .ok ⟨.unsubscribed ⟨m.requestId⟩, s⟩) := by
  obtain ⟨h1, h2, h3⟩ := (hb.ses s d hs).2 _ r hr
  have h4 : b.subscriptionsByTopic.contains (b.heap r).topic = true := Dict.contains_iff_get.2 ⟨_, h3⟩
  simp only [receiveUnsubscribe, hs, hr, Dict.contains_iff.2 h2, if_true]
  rw [if_neg (by simp [write, h4])]
  unfold drop; simp only [write, Subscription.without]
  split <;> rfl

theorem wf_unsubscribe (b : Broker) (hb : b.Wf) (s : Int) (m : Unsubscribe) (d : Dict Int Ref) (r : Ref)
    (hs : b.subscriptionsBySession.get s = some d) (hr : d.get m.subscriptionId.val = some r) :
    (b.receiveUnsubscribe s m).1.Wf := by
  rw [unsubscribe_ok b hb s m d r hs hr]
  obtain ⟨e1, e2, e3, e4⟩ := drop_rest b r s
  obtain ⟨g1, g2, g3⟩ := (hb.ses s d hs).2 _ r hr
  refine ⟨?_, ?_, ?_⟩
  · intro t r' h
    simp only [drop_topic, drop_heap, e4] at h ⊢
    split at h
    · cases h
    · rename_i hk
      obtain ⟨a1, a2, a3, a4⟩ := hb.top t r' h
      split
      · rename_i e; subst e
        exact ⟨a1, fun e => hk ⟨a1, e⟩, a3.del s, a4⟩
      · exact ⟨a1, a2, a3, a4⟩
  · intro s' d' h
    simp only [Dict.get_set] at h
    have old : ∀ i r', (s ≠ s' ∨ r' ≠ r) → (∃ d', b.subscriptionsBySession.get s' = some d' ∧ d'.get i = some r') →
        ((b.drop r s).heap r').id = i ∧ s' ∈ ((b.drop r s).heap r').subscribers.keys ∧
        (b.drop r s).subscriptionsByTopic.get ((b.drop r s).heap r').topic = some r' := by
      rintro i r' hne ⟨d', h1, h2⟩
      obtain ⟨h3, h4, h5⟩ := (hb.ses s' d' h1).2 i r' h2
      rw [drop_heap, drop_topic]
      split
      · rename_i e; subst e
        have hk : s' ∈ ((b.heap r').subscribers.del s).keys := by
          rw [Dict.keys_del, List.mem_filter]
          refine ⟨h4, ?_⟩
          rcases hne with hne | hne
          · simpa using fun e : s' = s => hne e.symm
          · exact absurd rfl hne
        refine ⟨h3, hk, ?_⟩
        rw [if_neg]
        · exact h5
        · rintro ⟨-, e⟩; rw [e] at hk; cases hk
      · rename_i hr'
        refine ⟨h3, h4, ?_⟩
        rw [if_neg]
        · exact h5
        · rintro ⟨e, -⟩; rw [← e, g3] at h5; exact hr' (by simpa using h5.symm)
    split at h
    · rename_i e; subst e; cases h
      refine ⟨(hb.ses s d hs).1.del _, fun i r' h => ?_⟩
      rw [Dict.get_del] at h
      split at h
      · cases h
      · rename_i hi
        refine old i r' (.inr ?_) ⟨d, hs, h⟩
        rintro rfl
        exact hi (g1.symm.trans ((hb.ses s d hs).2 _ _ h).1)
    · rename_i hne
      exact ⟨(hb.ses s' d' h).1, fun i r' h' => old i r' (.inl hne) ⟨d', h, h'⟩⟩
  · intro s'
    have := hb.reg s'
    simp only [e2, Dict.contains, Dict.get_set] at this ⊢
    split
    · rename_i e; subst e; simpa [hs] using this
    · exact this

/-! ## All calls -/

/-- Calls that raise: always `ValueError`, broker unchanged; the others keep the invariant. -/
theorem step_spec (b : Broker) (hb : b.Wf) (op : Op) :
    (∃ out, (b.step op).2 = .ok out ∧ (b.step op).1.Wf) ∨ (∃ msg, b.step op = (b, .error (.valueError msg))) := by
  cases op with
  | addSession dt =>
    simp only [step, addSession]
    split
    · right; exact ⟨_, rfl⟩
    · rename_i hc
      left
      refine ⟨.unit, rfl, ?_, ?_, ?_⟩
      · exact hb.top
      · intro s d h
        simp only [Dict.get_set] at h
        split at h
        · cases h; exact ⟨Dict.wf_empty, by intro i r h; simp at h⟩
        · exact hb.ses s d h
      · intro s
        have := hb.reg s
        simp only [Dict.contains, Dict.get_set] at this ⊢
        split
        · rfl
        · exact this
  | removeSession s =>
    cases hs : b.subscriptionsBySession.get s with
    | none => right; exact ⟨_, by simp only [step, removeSession, hs]; rfl⟩
    | some d =>
      left
      have hw := wf_removeSession b hb s d hs
      obtain ⟨b', k1, -⟩ := removeSession_ok b hb s d hs
      refine ⟨.unit, by simp only [step, k1]; rfl, by simpa only [step] using hw⟩
  | receiveMessage s m =>
    cases m with
    | subscribe m =>
      cases hs : b.subscriptionsBySession.get s with
      | none => right; exact ⟨_, by simp only [step, receiveMessage, receiveSubscribe, hs]; rfl⟩
      | some d =>
        left
        have hw := wf_subscribe b hb s m d hs
        have : ∃ x, (b.receiveSubscribe s m).2 = .ok x := by
          cases ht : b.subscriptionsByTopic.get m.topic with
          | none => rw [subscribe_new b s m d hs ht]; exact ⟨_, rfl⟩
          | some r => rw [subscribe_old b s m d r hs ht]; exact ⟨_, rfl⟩
        obtain ⟨x, hx⟩ := this
        exact ⟨.reply x, by simp only [step, receiveMessage, hx]; rfl, by simpa only [step, receiveMessage] using hw⟩
    | unsubscribe m =>
      cases hs : b.subscriptionsBySession.get s with
      | none => right; exact ⟨_, by simp only [step, receiveMessage, receiveUnsubscribe, hs]; rfl⟩
      | some d =>
        cases hr : d.get m.subscriptionId.val with
        | none => right; exact ⟨_, by simp only [step, receiveMessage, receiveUnsubscribe, hs, hr]; rfl⟩
        | some r =>
          left
          have hw := wf_unsubscribe b hb s m d r hs hr
          have hx := unsubscribe_ok b hb s m d r hs hr
          exact ⟨_, by simp only [step, receiveMessage, hx]; rfl, by simpa only [step, receiveMessage] using hw⟩
    | _ => right; exact ⟨_, rfl⟩
  | receivePublish s m =>
    simp only [step, receivePublish]
    split
    · left
      exact ⟨_, rfl, hb.top, hb.ses, hb.reg⟩
    · right; exact ⟨_, rfl⟩
  | hasSubscription t => left; exact ⟨_, rfl, hb⟩

theorem wf_step (b : Broker) (hb : b.Wf) (op : Op) : (b.step op).1.Wf := by
  rcases step_spec b hb op with ⟨_, -, h⟩ | ⟨_, h⟩
  · exact h
  · rw [h]; exact hb

theorem wf_runFrom (ops : List Op) : ∀ b : Broker, b.Wf → (b.runFrom ops).1.Wf := by
  induction ops with
  | nil => exact fun b h => h
  | cons op ops ih => exact fun b h => ih _ (wf_step b h op)

theorem wf_after (ops : List Op) : (after ops).Wf := wf_runFrom ops _ wf_init

theorem runFrom_append (xs ys : List Op) : ∀ b : Broker,
    b.runFrom (xs ++ ys) = ((((b.runFrom xs).1).runFrom ys).1, (b.runFrom xs).2 ++ (((b.runFrom xs).1).runFrom ys).2) := by
  induction xs with
  | nil => intro b; rfl
  | cons op xs ih => intro b; simp only [List.cons_append, runFrom, ih]

theorem after_snoc (ops : List Op) (op : Op) : after (ops ++ [op]) = ((after ops).step op).1 := by
  simp only [after, runFrom_append]; rfl

theorem trace_snoc (ops : List Op) (op : Op) :
    trace (ops ++ [op]) = trace ops ++ [(op, ((after ops).step op).2)] := by
  simp only [trace, runFrom_append]; rfl

end Wamp.Broker
