import Verif.Spec.Effects
import Verif.Props.Broker

/-!
# C22–C25: what a call changes for later publishes

`receivers ops q m` is who would receive the publish `m` of session `q` after the history `ops`.
-/

namespace Wamp.Broker
open Spec Spec.Pub

theorem receivers_eq {ops : List Op} (hc : NoClash (trace ops)) {q : Int} (hq : q ∈ (view (trace ops)).known) (m : Publish) :
    receivers ops q m = some ((view (trace ops)).subscribers m.topic) := by
  obtain ⟨p, h1, h2, -⟩ := C19_exact_delivery ops hc q m hq
  unfold receivers
  rw [h1, ← h2]

/-- After a SUBSCRIBE the session receives what is published to the topic, once, after those who received it before; nothing
else changes. -/
theorem C22_delivery (ops : List Op) (s : Int) (m : Subscribe) (hs : s ∈ (view (trace ops)).known)
    (hc : NoClash (trace (ops ++ [.receiveMessage s (.subscribe m)]))) (q : Int) (hq : q ∈ (view (trace ops)).known) (p : Publish) :
    ∃ l, receivers ops q p = some l ∧ receivers (ops ++ [.receiveMessage s (.subscribe m)]) q p =
      some (if p.topic = m.topic ∧ s ∉ l then l ++ [s] else l) := by
  have hc0 : NoClash (trace ops) := by rw [trace_snoc] at hc; exact (noClash_snoc hc).1
  obtain ⟨i, -, h2, h3, h4⟩ := C22_subscribe_known ops s m hs
  refine ⟨_, receivers_eq hc0 hq p, ?_⟩
  rw [receivers_eq hc (by rw [h2]; exact hq) p]
  by_cases ht : p.topic = m.topic
  · rw [ht, h4]
    by_cases hm : s ∈ (view (trace ops)).subscribers m.topic
    · rw [if_pos hm, if_neg (fun h => h.2 hm)]
    · rw [if_neg hm, if_pos ⟨rfl, hm⟩]
  · rw [h3 _ ht, if_neg (fun h => ht h.1)]

/-- Subscribing to a topic already held changes nothing for any publish. -/
theorem C23_delivery (ops : List Op) (s : Int) (m : Subscribe) (i : Int)
    (hx : (⟨s, m.topic, i⟩ : Holding) ∈ (view (trace ops)).held)
    (hc : NoClash (trace (ops ++ [.receiveMessage s (.subscribe m)]))) (q : Int) (hq : q ∈ (view (trace ops)).known) (p : Publish) :
    receivers (ops ++ [.receiveMessage s (.subscribe m)]) q p = receivers ops q p := by
  have hc0 : NoClash (trace ops) := by rw [trace_snoc] at hc; exact (noClash_snoc hc).1
  have h := (C23_subscribe_idempotent ops hc0 s _ i hx m rfl ⟨.int 0, .int i⟩ rfl).2.1
  rw [receivers_eq hc (by rw [h]; exact hq) p, h, receivers_eq hc0 hq p]

theorem noClash_unsubscribe {ops : List Op} (hc : NoClash (trace ops)) (s : Int) (u : Unsubscribe) :
    NoClash (trace (ops ++ [.receiveMessage s (.unsubscribe u)])) := by
  rw [trace_snoc]
  exact noClash_snoc_mk hc (fun h => by cases h)

theorem noClash_remove {ops : List Op} (hc : NoClash (trace ops)) (s : Int) : NoClash (trace (ops ++ [.removeSession s])) := by
  rw [trace_snoc]
  exact noClash_snoc_mk hc (fun h => by cases h)

/-- After an UNSUBSCRIBE the session no longer receives what is published to that topic; nothing else changes. -/
theorem C24_delivery (ops : List Op) (hc : NoClash (trace ops)) (s : Int) (t : String) (u : Unsubscribe)
    (hx : (⟨s, t, u.subscriptionId.val⟩ : Holding) ∈ (view (trace ops)).held) (q : Int) (hq : q ∈ (view (trace ops)).known)
    (p : Publish) :
    ∃ l, receivers ops q p = some l ∧ receivers (ops ++ [.receiveMessage s (.unsubscribe u)]) q p =
      some (if p.topic = t then l.filter (· ≠ s) else l) := by
  obtain ⟨h1, h2, -⟩ := C24_unsubscribe_held ops hc s t u hx
  refine ⟨_, receivers_eq hc hq p, ?_⟩
  rw [receivers_eq (noClash_unsubscribe hc s u) (by rw [h2]; exact hq) p]
  have h1' : ((after ops).step (.receiveMessage s (.unsubscribe u))).2 = _ := h1
  rw [trace_snoc, view_snoc, h1']
  simp only [View.next, View.subscribers, subscribersOf, List.filter_filter]
  congr 1
  have hr := rel_after ops hc
  split
  · rename_i ht
    rw [List.filter_map, List.filter_filter]
    congr 1
    apply List.filter_congr
    intro x hxm
    by_cases hxt : x.topic = p.topic
    · by_cases hxs : x.session = s
      · have := C21_topic_determines_id ops hc x _ hxm hx (hxt.trans ht)
        simp [hxt, hxs, this]
      · simp [hxt, hxs]
    · simp [hxt]
  · rename_i ht
    congr 1
    apply List.filter_congr
    intro x hxm
    by_cases hxt : x.topic = p.topic
    · by_cases hxs : x.session = s ∧ x.id = u.subscriptionId.val
      · exact absurd (hxt ▸ (congrArg Holding.topic (hr.held_inj (wf_after ops) hxm hx hxs.1 hxs.2))) (fun h => ht (by simpa using h))
      · simp [hxt, hxs]
    · simp [hxt]

/-- After a session has left, the others receive what they received before. -/
theorem C25_delivery (ops : List Op) (hc : NoClash (trace ops)) (s : Int) (hs : s ∈ (view (trace ops)).known) (q : Int)
    (hq : q ∈ (view (trace ops)).known) (hqs : q ≠ s) (p : Publish) :
    ∃ l, receivers ops q p = some l ∧ receivers (ops ++ [.removeSession s]) q p = some (l.filter (· ≠ s)) := by
  obtain ⟨h1, h2, -⟩ := C25_remove_known ops s hs
  refine ⟨_, receivers_eq hc hq p, ?_⟩
  rw [receivers_eq (noClash_remove hc s) ((h2 q).2 ⟨hq, hqs⟩) p]
  have h1' : ((after ops).step (.removeSession s)).2 = _ := h1
  rw [trace_snoc, view_snoc, h1']
  simp only [View.next, View.subscribers, subscribersOf, List.filter_filter]
  rw [List.filter_map, List.filter_filter]
  congr 2
  apply List.filter_congr
  intro x _
  simp [Function.comp, Bool.and_comm]

/-- What one call does to the subscriptions, as far as it can be observed: some end, or one is added at the end. -/
theorem held_next (v : View) (e : Obs) :
    (∃ p, (v.next e).held = v.held.filter p) ∨ ∃ new, (v.next e).held = v.held ++ new := by
  unfold View.next
  split
  · exact .inr ⟨[], (List.append_nil _).symm⟩
  · exact .inl ⟨_, rfl⟩
  · simp only [subscribed]
    split
    · exact .inr ⟨[], (List.append_nil _).symm⟩
    · exact .inr ⟨_, rfl⟩
  · exact .inl ⟨_, rfl⟩
  · exact .inr ⟨[], (List.append_nil _).symm⟩
  · exact .inr ⟨[], (List.append_nil _).symm⟩

theorem subscribers_nodup (ops : List Op) (hc : NoClash (trace ops)) (t : String) : ((view (trace ops)).subscribers t).Nodup := by
  have hr := rel_after ops hc
  cases ht : (after ops).subscriptionsByTopic.get t with
  | none => rw [hr.subs_none ht]; exact List.nodup_nil
  | some r =>
    rw [hr.subs_some ht]
    exact ((wf_after ops).top _ _ ht).2.2.1

theorem subscribersOf_append (h h' : List Holding) (t : String) : subscribersOf (h ++ h') t = subscribersOf h t ++ subscribersOf h' t := by
  simp [subscribersOf]

/-- The order of the recipients is the order of subscription: if `s` was subscribed to the topic when `s'` was not, and has been ever
since, then `s` comes before `s'` in the recipients of every publish to the topic. -/
theorem C19_order (pre later : List Op) (hc : NoClash (trace (pre ++ later))) (s s' : Int) (m : Publish)
    (h1 : s' ∉ (view (trace pre)).subscribers m.topic)
    (h2 : ∀ part, part <+: later → s ∈ (view (trace (pre ++ part))).subscribers m.topic)
    (q : Int) (p : Publication) (hp : outcome (pre ++ later) (.receivePublish q m) = .ok (.publication p)) (h3 : s' ∈ p.recipients) :
    [s, s'].Sublist p.recipients := by
  have key : NoClash (trace (pre ++ later)) → (∀ part, part <+: later → s ∈ (view (trace (pre ++ part))).subscribers m.topic) →
      ∃ a b, (view (trace (pre ++ later))).held = a ++ b ∧ s ∈ subscribersOf a m.topic ∧ s' ∉ subscribersOf a m.topic := by
    clear hc h2 hp h3
    induction later using snoc_induction with
    | nil =>
      intro _ h2
      have := h2 [] (List.prefix_refl _)
      rw [List.append_nil] at this ⊢
      exact ⟨_, [], (List.append_nil _).symm, this, h1⟩
    | snoc later op ih =>
      intro hc h2
      have hc0 : NoClash (trace (pre ++ later)) := by rw [← List.append_assoc, trace_snoc] at hc; exact (noClash_snoc hc).1
      obtain ⟨a, b, e, ha, hb⟩ := ih hc0 fun part h => h2 part (h.trans (List.prefix_append _ _))
      have hs := h2 _ (List.prefix_refl _)
      have hn := subscribers_nodup _ hc0 m.topic
      rw [View.subscribers, e, subscribersOf_append] at hn
      rw [View.subscribers] at hs
      rw [← List.append_assoc, trace_snoc, view_snoc] at hs ⊢
      rcases held_next (view (trace (pre ++ later))) (op, ((after (pre ++ later)).step op).2) with ⟨f, h⟩ | ⟨new, h⟩
      · rw [h, e, List.filter_append] at hs ⊢
        rw [subscribersOf_append, List.mem_append] at hs
        refine ⟨_, _, rfl, ?_, fun hx => hb ?_⟩
        · rcases hs with hs | hs
          · exact hs
          · obtain ⟨x, hx, rfl⟩ := List.mem_map.1 hs
            obtain ⟨hx1, hx2⟩ := List.mem_filter.1 hx
            exact absurd (List.mem_map.2 ⟨x, List.mem_filter.2 ⟨(List.mem_filter.1 hx1).1, hx2⟩, rfl⟩)
              (fun hy => (List.nodup_append.1 hn).2.2 _ ha _ hy rfl)
        · obtain ⟨x, hy, rfl⟩ := List.mem_map.1 hx
          obtain ⟨hx1, hx2⟩ := List.mem_filter.1 hy
          exact List.mem_map.2 ⟨x, List.mem_filter.2 ⟨(List.mem_filter.1 hx1).1, hx2⟩, rfl⟩
      · rw [h, e, List.append_assoc]
        exact ⟨_, _, rfl, ha, hb⟩
  obtain ⟨a, b, e, ha, hb⟩ := key hc h2
  have hq : q ∈ (view (trace (pre ++ later))).known := by
    by_cases hq : q ∈ (view (trace (pre ++ later))).known
    · exact hq
    · obtain ⟨⟨msg, hm⟩, -⟩ := C19_unknown_publisher _ q m hq
      rw [hm] at hp; cases hp
  obtain ⟨p', e1, e2, -⟩ := C19_exact_delivery _ hc q m hq
  rw [e1] at hp
  cases hp
  rw [e2, View.subscribers, e, subscribersOf_append] at h3 ⊢
  rcases List.mem_append.1 h3 with h3 | h3
  · exact absurd h3 hb
  · exact (List.singleton_sublist.2 ha).append (List.singleton_sublist.2 h3)

/-- In the worked history 2 subscribed to "a" before 1 did, and 3 came and went in between. -/
example : (∃ p, outcome demo (.receivePublish 1 ⟨.int 9, "a", none, none, []⟩) = .ok (.publication p) ∧ p.recipients = [2, 1]) ∧
    1 ∉ (view (trace (demo.take 4))).subscribers "a" ∧
    ∀ part, part <+: demo.drop 4 → 2 ∈ (view (trace (demo.take 4 ++ part))).subscribers "a" := by
  refine ⟨⟨_, rfl, by decide⟩, by decide, fun part h => ?_⟩
  rw [List.prefix_iff_eq_take.1 h]
  have hl : part.length ≤ 4 := h.length_le
  revert hl
  generalize part.length = n
  intro hl
  match n, hl with
  | 0, _ | 1, _ | 2, _ | 3, _ | 4, _ => decide

/-- In the worked history a publish to "a" reaches 2 and 1; after 2 unsubscribes it reaches 1; after 1 subscribes to "b" a
publish to "b" reaches 2 and 1. -/
example : receivers demo 1 ⟨.int 9, "a", none, none, []⟩ = some [2, 1] ∧
    receivers (demo ++ [.receiveMessage 2 (.unsubscribe ⟨.int 5, .int 1⟩)]) 1 ⟨.int 9, "a", none, none, []⟩ = some [1] ∧
    receivers (demo ++ [.receiveMessage 1 (.subscribe ⟨.int 5, "b", []⟩)]) 1 ⟨.int 9, "b", none, none, []⟩ = some [2, 1] ∧
    receivers (demo ++ [.removeSession 2]) 1 ⟨.int 9, "a", none, none, []⟩ = some [1] := by decide

end Wamp.Broker
