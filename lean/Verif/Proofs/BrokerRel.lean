import Verif.Spec.Broker
import Verif.Proofs.BrokerInv
import Verif.Proofs.Lists
import Verif.Props.Idgen

/-! # The broker's state against the observed trace -/

namespace Wamp.Broker
open Spec.Pub

/-- `IdGen` after `n` draws is the closed form. -/
theorem idgen_next (n : Nat) : (IdGen.after n).next = (IdGen.after (n + 1), IdGen.draw n) := rfl

/-- How the broker's state relates to the view of the trace. -/
structure Rel (b : Broker) (v : View) : Prop where
  known : ∀ s, s ∈ v.known ↔ ∃ d, b.subscriptionsBySession.get s = some d
  subs : ∀ t, v.subscribers t = match b.subscriptionsByTopic.get t with
    | none => []
    | some r => (b.heap r).subscribers.keys
  ids : ∀ x ∈ v.held, ∃ r d, b.subscriptionsByTopic.get x.topic = some r ∧ (b.heap r).id = x.id ∧
    b.subscriptionsBySession.get x.session = some d ∧ d.get x.id = some r
  gen : b.idgen = IdGen.after v.drawn

theorem rel_init : Rel init {} := by
  refine ⟨?_, ?_, ?_, rfl⟩
  · intro s; simp [init]
  · intro t; rfl
  · intro x hx; cases hx

theorem mem_subscribers {v : View} {t : String} {s : Int} : s ∈ v.subscribers t ↔ ∃ x ∈ v.held, x.session = s ∧ x.topic = t := by
  simp only [View.subscribers, subscribersOf, List.mem_map, List.mem_filter, decide_eq_true_eq]
  constructor
  · rintro ⟨x, ⟨h1, h2⟩, h3⟩; exact ⟨x, h1, h3, h2⟩
  · rintro ⟨x, h1, h3, h2⟩; exact ⟨x, ⟨h1, h2⟩, h3⟩

theorem Rel.subs_none {b : Broker} {v : View} (h : Rel b v) {t : String} (ht : b.subscriptionsByTopic.get t = none) :
    v.subscribers t = [] := by rw [h.subs t, ht]
theorem Rel.subs_some {b : Broker} {v : View} (h : Rel b v) {t : String} {r : Ref} (ht : b.subscriptionsByTopic.get t = some r) :
    v.subscribers t = (b.heap r).subscribers.keys := by rw [h.subs t, ht]

theorem subscribers_nil_iff {v : View} {t : String} : v.subscribers t = [] ↔ v.held.any (·.topic = t) = false := by
  rw [List.eq_nil_iff_forall_not_mem]
  simp only [mem_subscribers, List.any_eq_false, decide_eq_true_eq]
  constructor
  · intro h x hx ht; exact h _ ⟨x, hx, rfl, ht⟩
  · rintro h s ⟨x, hx, -, ht⟩; exact h x hx ht

theorem any_holds_iff {v : View} {s : Int} {t : String} :
    v.held.any (fun x => x.session = s && x.topic = t) = true ↔ s ∈ v.subscribers t := by
  rw [mem_subscribers]
  simp only [List.any_eq_true, Bool.and_eq_true, decide_eq_true_eq]

/-- An entry of a session's dict is a holding. -/
theorem Rel.holding {b : Broker} {v : View} (hb : b.Wf) (h : Rel b v) {s : Int} {d : Dict Int Ref} {i : Int} {r : Ref}
    (hs : b.subscriptionsBySession.get s = some d) (hr : d.get i = some r) :
    (⟨s, (b.heap r).topic, i⟩ : Holding) ∈ v.held := by
  obtain ⟨h1, h2, h3⟩ := (hb.ses s d hs).2 i r hr
  rw [← h.subs_some h3] at h2
  obtain ⟨x, hx, e1, e2⟩ := mem_subscribers.1 h2
  obtain ⟨r', d', k1, k2, k3, k4⟩ := h.ids x hx
  rw [e2, h3] at k1; cases k1
  have : x = ⟨s, (b.heap r).topic, i⟩ := by
    cases x; simp only at e1 e2 k2 ⊢; subst e1 e2; rw [← k2, h1]
  exact this ▸ hx

theorem subscribed_same {v : View} {s : Int} {t : String} (h : s ∈ v.subscribers t) (i : Int) :
    subscribed v.held s t i = v.held := by
  simp only [subscribed, any_holds_iff.2 h, if_true]

theorem subscribed_new {v : View} {s : Int} {t : String} (h : s ∉ v.subscribers t) (i : Int) :
    subscribed v.held s t i = v.held ++ [⟨s, t, i⟩] := by
  have h2 : ¬ v.held.any (fun x => x.session = s && x.topic = t) = true := fun e => h (any_holds_iff.1 e)
  simp only [subscribed, if_neg h2]

theorem subscribersOf_other {v : View} {s : Int} {t t' : String} (h : t' ≠ t) (i : Int) :
    subscribersOf (subscribed v.held s t i) t' = v.subscribers t' := by
  unfold subscribed
  split
  · rfl
  · have : ¬ t = t' := fun e => h e.symm
    simp [subscribersOf, View.subscribers, List.filter_append, this]

theorem subscribersOf_topic {v : View} {s : Int} {t : String} (i : Int) :
    subscribersOf (subscribed v.held s t i) t = if s ∈ v.subscribers t then v.subscribers t else v.subscribers t ++ [s] := by
  by_cases h : s ∈ v.subscribers t
  · rw [if_pos h, subscribed_same h]; rfl
  · rw [if_neg h, subscribed_new h]; simp [subscribersOf, View.subscribers, List.filter_append]

theorem rel_subscribe (b : Broker) (hb : b.Wf) (v : View) (h : Rel b v) (s : Int) (m : Subscribe) (d : Dict Int Ref)
    (hs : b.subscriptionsBySession.get s = some d)
    (hc : ¬ Clash v (.receiveMessage s (.subscribe m), (b.step (.receiveMessage s (.subscribe m))).2)) :
    Rel (b.receiveSubscribe s m).1
      (v.next (.receiveMessage s (.subscribe m), (b.step (.receiveMessage s (.subscribe m))).2)) := by
  have hknown : ∀ (y : Dict Int Ref) s', (∃ d, b.subscriptionsBySession.get s' = some d) ↔
      ∃ d, (b.subscriptionsBySession.set s y).get s' = some d := by
    intro y s'; rw [Dict.get_set]
    split
    · rename_i e; subst e; exact ⟨fun _ => ⟨_, rfl⟩, fun _ => ⟨_, hs⟩⟩
    · rfl
  cases ht : b.subscriptionsByTopic.get m.topic with
  | none =>
    have hres := subscribe_new b s m d hs ht
    simp only [step, receiveMessage, hres, Except.map, View.next, Clash, PyInt.val] at hc ⊢
    have hnil := h.subs_none ht
    have hlt : ∀ t r, b.subscriptionsByTopic.get t = some r → r ≠ b.nextRef := by
      intro t r h e; have := (hb.top t r h).2.2.2; rw [e] at this; exact Nat.lt_irrefl _ this
    refine ⟨?_, ?_, ?_, ?_⟩
    · intro s'; simp only [h.known, ← hknown]
    · intro t
      simp only [View.subscribers, Dict.get_set]
      by_cases e : t = m.topic
      · subst e
        rw [subscribersOf_topic, if_neg (by simp [hnil]), hnil]
        simp only [if_true, Dict.keys_single]; rfl
      · rw [subscribersOf_other e, if_neg (fun h => e h.symm), h.subs t]
        cases h3 : b.subscriptionsByTopic.get t with
        | none => rfl
        | some r => simp only [if_neg (hlt t r h3)]
    · intro x hx
      have hany : ¬ v.held.any (fun x => x.session = s && x.topic = m.topic) = true := by
        rw [any_holds_iff, hnil]; simp
      simp only [subscribed, if_neg hany, List.mem_append, List.mem_singleton] at hx
      rcases hx with hx | rfl
      · obtain ⟨r, d', k1, k2, k3, k4⟩ := h.ids x hx
        have hne : m.topic ≠ x.topic := by intro e; rw [← e, ht] at k1; cases k1
        refine ⟨r, if s = x.session then d.set b.idgen.next.2 b.nextRef else d', ?_, ?_, ?_, ?_⟩
        · rw [Dict.get_set, if_neg hne, k1]
        · simp only [if_neg (hlt _ _ k1), k2]
        · rw [Dict.get_set]; split
          · rfl
          · exact k3
        · split
          · rename_i e; subst e
            rw [hs] at k3; cases k3
            rw [Dict.get_set, if_neg, k4]
            intro e
            exact hc ⟨x, hx, rfl, fun e => hne e.symm, e.symm⟩
          · exact k4
      · exact ⟨b.nextRef, d.set b.idgen.next.2 b.nextRef, by simp, by simp, by simp, by simp⟩
    · have hf := subscribers_nil_iff.1 hnil
      simp only [hf, h.gen, idgen_next]; rfl
  | some r0 =>
    have hres := subscribe_old b s m d r0 hs ht
    simp only [step, receiveMessage, hres, Except.map, View.next, Clash, PyInt.val] at hc ⊢
    have hsome := h.subs_some ht
    obtain ⟨o1, o2, o3, o4⟩ := hb.top m.topic r0 ht
    refine ⟨?_, ?_, ?_, ?_⟩
    · intro s'; simp only [h.known, ← hknown]
    · intro t
      simp only [View.subscribers]
      by_cases e : t = m.topic
      · subst e
        rw [ht, subscribersOf_topic, hsome]
        simp only [if_true, Dict.keys_set]
      · rw [subscribersOf_other e, h.subs t]
        cases h3 : b.subscriptionsByTopic.get t with
        | none => rfl
        | some r =>
          have : r ≠ r0 := by
            rintro rfl; exact e ((hb.top t r h3).1.symm.trans o1)
          simp only [if_neg this]
    · intro x hx
      have hheap : ∀ r, (if r = r0 then ⟨(b.heap r0).id, (b.heap r0).topic, (b.heap r0).subscribers.set s s⟩
          else b.heap r : Subscription).id = (b.heap r).id := by
        intro r; split
        · rename_i e; rw [e]
        · rfl
      have hx' : x ∈ v.held ∨ x = ⟨s, m.topic, (b.heap r0).id⟩ := by
        unfold subscribed at hx
        split at hx
        · exact .inl hx
        · simpa using hx
      clear hx
      rcases hx' with hx | rfl
      · obtain ⟨r, d', k1, k2, k3, k4⟩ := h.ids x hx
        refine ⟨r, if s = x.session then d.set (b.heap r0).id r0 else d', k1, ?_, ?_, ?_⟩
        · rw [hheap, k2]
        · rw [Dict.get_set]; split
          · rfl
          · exact k3
        · split
          · rename_i e; subst e
            rw [hs] at k3; cases k3
            rw [Dict.get_set]
            split
            · rename_i e
              by_cases hne : x.topic = m.topic
              · rw [hne, ht] at k1; exact k1
              · exact absurd ⟨x, hx, rfl, hne, e.symm⟩ hc
            · exact k4
          · exact k4
      · exact ⟨r0, d.set (b.heap r0).id r0, ht, hheap r0, by simp, by simp⟩
    · have hne : v.held.any (·.topic = m.topic) = true := by
        by_cases hk : v.held.any (·.topic = m.topic) = true
        · exact hk
        · exact absurd (hsome ▸ subscribers_nil_iff.2 (by simpa using hk)) o2
      simp only [hne, if_true, h.gen]

theorem rel_unsubscribe (b : Broker) (hb : b.Wf) (v : View) (h : Rel b v) (s : Int) (m : Unsubscribe) (d : Dict Int Ref)
    (r : Ref) (hs : b.subscriptionsBySession.get s = some d) (hr : d.get m.subscriptionId.val = some r) :
    Rel (b.receiveUnsubscribe s m).1
      { v with held := v.held.filter (fun x => ¬ (x.session = s ∧ x.id = m.subscriptionId.val)) } := by
  rw [unsubscribe_ok b hb s m d r hs hr]
  obtain ⟨e1, e2, e3, e4⟩ := drop_rest b r s
  obtain ⟨g1, g2, g3⟩ := (hb.ses s d hs).2 _ r hr
  have hhold := h.holding hb hs hr
  -- a holding of `s` is the one dropped iff its topic is that of `r`
  have hiff : ∀ x ∈ v.held, x.session = s → (x.id = m.subscriptionId.val ↔ x.topic = (b.heap r).topic) := by
    intro x hx es
    obtain ⟨r', d', k1, k2, k3, k4⟩ := h.ids x hx
    rw [es, hs] at k3; cases k3
    constructor
    · intro e; rw [e, hr] at k4; cases k4; exact (hb.top _ _ k1).1.symm
    · intro e; rw [e, g3] at k1; cases k1; rw [← k2, g1]
  refine ⟨?_, ?_, ?_, ?_⟩
  · intro s'
    simp only [h.known, Dict.get_set]
    split
    · rename_i e; subst e; exact ⟨fun _ => ⟨_, rfl⟩, fun _ => ⟨_, hs⟩⟩
    · rfl
  · intro t
    simp only [drop_topic, drop_heap]
    have hsub : View.subscribers { v with held := v.held.filter (fun x => ¬ (x.session = s ∧ x.id = m.subscriptionId.val)) } t
        = if t = (b.heap r).topic then (v.subscribers t).filter (· ≠ s) else v.subscribers t := by
      simp only [View.subscribers, subscribersOf, List.filter_filter]
      split
      · rename_i et
        rw [List.filter_map, List.filter_filter]
        congr 1
        apply List.filter_congr
        intro x hx
        simp only [Function.comp_apply]
        by_cases ht : x.topic = t
        · by_cases es : x.session = s
          · have := (hiff x hx es).2 (ht.trans et); simp [ht, es, this]
          · simp [ht, es]
        · simp [ht]
      · rename_i et
        congr 1
        apply List.filter_congr
        intro x hx
        by_cases ht : x.topic = t
        · have : ¬ (x.session = s ∧ x.id = m.subscriptionId.val) := by
            rintro ⟨es, ei⟩; exact et (ht.symm.trans ((hiff x hx es).1 ei))
          simp only [ht, this]; decide
        · simp [ht]
    rw [hsub]
    by_cases et : t = (b.heap r).topic
    · subst et
      rw [if_pos rfl, h.subs_some g3, ← Dict.keys_del]
      by_cases hk : ((b.heap r).subscribers.del s).keys = []
      · simp [hk]
      · simp [hk, g3, Subscription.without]
    · rw [if_neg et, if_neg (fun e => et e.1.symm), h.subs t]
      cases h3 : b.subscriptionsByTopic.get t with
      | none => rfl
      | some r' =>
        have : r' ≠ r := by rintro rfl; exact et (hb.top t r' h3).1.symm
        simp only [if_neg this]
  · intro x hx
    simp only [List.mem_filter, decide_eq_true_eq] at hx
    obtain ⟨hx, hn⟩ := hx
    obtain ⟨r', d', k1, k2, k3, k4⟩ := h.ids x hx
    obtain ⟨-, h2, -⟩ := (hb.ses _ d' k3).2 _ _ k4
    refine ⟨r', if s = x.session then d.del m.subscriptionId.val else d', ?_, ?_, ?_, ?_⟩
    · simp only [drop_topic]
      rw [if_neg]
      · exact k1
      · rintro ⟨et, hk⟩
        rw [← et, g3] at k1; cases k1
        have : x.session ∈ ((b.heap r).subscribers.del s).keys := by
          rw [Dict.keys_del, List.mem_filter]
          refine ⟨h2, ?_⟩
          simp only [ne_eq, decide_eq_true_eq]
          intro es
          exact hn ⟨es, (hiff x hx es).2 et.symm⟩
        rw [hk] at this; cases this
    · simp only [drop_heap]; split
      · rename_i e; subst e; exact k2
      · exact k2
    · simp only [Dict.get_set]; split
      · rfl
      · exact k3
    · split
      · rename_i e; subst e
        rw [hs] at k3; cases k3
        rw [Dict.get_del, if_neg, k4]
        intro e; exact hn ⟨rfl, e.symm⟩
      · exact k4
  · simp only [e3, h.gen]

theorem rel_removeSession (b : Broker) (hb : b.Wf) (v : View) (h : Rel b v) (s : Int) (d : Dict Int Ref)
    (hs : b.subscriptionsBySession.get s = some d) :
    Rel (b.removeSession s).1
      { v with known := v.known.filter (· ≠ s), held := v.held.filter (·.session ≠ s) } := by
  obtain ⟨b', k1, k2, k3, k4, k5, k6, k6', k7⟩ := removeSession_ok b hb s d hs
  rw [k1]; simp only
  have hsub : ∀ t, View.subscribers { v with known := v.known.filter (· ≠ s), held := v.held.filter (·.session ≠ s) } t =
      (v.subscribers t).filter (· ≠ s) := by
    intro t
    simp only [View.subscribers, subscribersOf, List.filter_filter, List.filter_map]
    congr 1
    apply List.filter_congr
    intro x hx; simp [Bool.and_comm]
  -- if `s` subscribes to the topic of `r`, then `r` is in its dict
  have hin : ∀ t r, b.subscriptionsByTopic.get t = some r → s ∈ (b.heap r).subscribers.keys → ∃ i, d.get i = some r := by
    intro t r ht hk
    rw [← h.subs_some ht] at hk
    obtain ⟨x, hx, es, et⟩ := mem_subscribers.1 hk
    obtain ⟨r', d', j1, j2, j3, j4⟩ := h.ids x hx
    rw [et, ht] at j1; cases j1
    rw [es, hs] at j3; cases j3
    exact ⟨_, j4⟩
  refine ⟨?_, ?_, ?_, ?_⟩
  · intro s'
    simp only [List.mem_filter, h.known, k2, Dict.get_del, decide_eq_true_eq]
    by_cases e : s = s'
    · subst e; simp
    · have : s' ≠ s := fun x => e x.symm
      simp [e, this]
  · intro t
    rw [hsub]
    cases ht : b.subscriptionsByTopic.get t with
    | none =>
      have : b'.subscriptionsByTopic.get t = none := by
        cases h5 : b'.subscriptionsByTopic.get t with
        | none => rfl
        | some r => rw [k7, ht] at h5; cases h5.1
      rw [this, h.subs_none ht]; rfl
    | some r =>
      rw [h.subs_some ht]
      by_cases hr : ∃ i, d.get i = some r
      · by_cases hk : ((b.heap r).subscribers.del s).keys = []
        · have : b'.subscriptionsByTopic.get t = none := by
            cases h5 : b'.subscriptionsByTopic.get t with
            | none => rfl
            | some r' => rw [k7, ht] at h5; obtain ⟨e, h6⟩ := h5; cases e; exact absurd ⟨hr, hk⟩ h6
          rw [this, ← Dict.keys_del, hk]
        · have : b'.subscriptionsByTopic.get t = some r := by rw [k7]; exact ⟨ht, fun e => hk e.2⟩
          rw [this]; simp only [k6 r hr, Subscription.without, Dict.keys_del]
      · have : b'.subscriptionsByTopic.get t = some r := by rw [k7]; exact ⟨ht, fun e => hr e.1⟩
        rw [this]; simp only [k6' r hr]
        rw [List.filter_eq_self]
        intro s' hs'
        simp only [ne_eq, decide_eq_true_eq]
        rintro rfl
        exact hr (hin t r ht hs')
  · intro x hx
    simp only [List.mem_filter, decide_eq_true_eq] at hx
    obtain ⟨hx, hn⟩ := hx
    obtain ⟨r, d', j1, j2, j3, j4⟩ := h.ids x hx
    obtain ⟨-, h2, -⟩ := (hb.ses _ d' j3).2 _ _ j4
    refine ⟨r, d', ?_, ?_, ?_, j4⟩
    · rw [k7]
      refine ⟨j1, ?_⟩
      rintro ⟨-, hk⟩
      have : x.session ∈ ((b.heap r).subscribers.del s).keys := by
        rw [Dict.keys_del, List.mem_filter]
        exact ⟨h2, by simpa using hn⟩
      rw [hk] at this; cases this
    · by_cases hr : ∃ i, d.get i = some r
      · rw [k6 r hr]; exact j2
      · rw [k6' r hr]; exact j2
    · rw [k2, Dict.get_del, if_neg (fun e => hn e.symm), j3]
  · rw [k4]; exact h.gen

/-- One call keeps the relation, unless it hands out a clashing id. -/
theorem rel_step (b : Broker) (hb : b.Wf) (v : View) (h : Rel b v) (op : Op) (hc : ¬ Clash v (op, (b.step op).2)) :
    Rel (b.step op).1 (v.next (op, (b.step op).2)) := by
  cases op with
  | addSession dt =>
    simp only [step, addSession]
    split
    · exact h
    · rename_i hk
      refine ⟨?_, h.subs, ?_, h.gen⟩
      · intro s
        simp only [View.next, Except.map, List.mem_append, List.mem_singleton, h.known, Dict.get_set]
        split
        · rename_i e; simp [e.symm]
        · rename_i e; have : ¬ s = dt.sessionId.val := fun x => e x.symm
          simp [this]
      · intro x hx
        obtain ⟨r, d, k1, k2, k3, k4⟩ := h.ids x hx
        refine ⟨r, d, k1, k2, ?_, k4⟩
        simp only [Dict.get_set]
        rw [if_neg, k3]
        intro e
        exact hk (Dict.contains_iff_get.2 ⟨d, e ▸ k3⟩)
  | removeSession s =>
    cases hs : b.subscriptionsBySession.get s with
    | none => simp only [step, removeSession, hs, Except.map, View.next]; exact h
    | some d =>
      have hw := rel_removeSession b hb v h s d hs
      obtain ⟨b', k1, -⟩ := removeSession_ok b hb s d hs
      simp only [step, k1, Except.map, View.next] at hw ⊢; exact hw
  | receiveMessage s m =>
    cases m with
    | subscribe m =>
      cases hs : b.subscriptionsBySession.get s with
      | none => simp only [step, receiveMessage, receiveSubscribe, hs, Except.map, View.next]; exact h
      | some d => exact rel_subscribe b hb v h s m d hs hc
    | unsubscribe m =>
      cases hs : b.subscriptionsBySession.get s with
      | none => simp only [step, receiveMessage, receiveUnsubscribe, hs, Except.map, View.next]; exact h
      | some d =>
        cases hr : d.get m.subscriptionId.val with
        | none => simp only [step, receiveMessage, receiveUnsubscribe, hs, hr, Except.map, View.next]; exact h
        | some r =>
          have hw := rel_unsubscribe b hb v h s m d r hs hr
          have hx := unsubscribe_ok b hb s m d r hs hr
          simp only [step, receiveMessage, hx, Except.map, View.next] at hw ⊢; exact hw
    | _ => exact h
  | receivePublish s m =>
    simp only [step, receivePublish]
    split
    · simp only [Except.map, View.next]
      exact ⟨h.known, h.subs, h.ids, by simp only [h.gen, idgen_next]⟩
    · exact h
  | hasSubscription t => exact h

theorem view_snoc (tr : List Obs) (e : Obs) : view (tr ++ [e]) = (view tr).next e := by
  simp [view, List.foldl_append]

theorem noClash_snoc {tr : List Obs} {e : Obs} (h : NoClash (tr ++ [e])) : NoClash tr ∧ ¬ Clash (view tr) e := by
  refine ⟨?_, h tr e [] rfl⟩
  intro pre e' post htr
  exact h pre e' (post ++ [e]) (by rw [htr]; simp)

theorem noClash_snoc_mk {tr : List Obs} {e : Obs} (h : NoClash tr) (he : ¬ Clash (view tr) e) : NoClash (tr ++ [e]) := by
  intro pre e' post htr
  rcases List.eq_nil_or_concat post with rfl | ⟨post', y, rfl⟩
  · have := List.append_inj' htr rfl
    obtain ⟨h1, h2⟩ := this
    cases h2; rw [← h1]; exact he
  · have htr' : tr ++ [e] = (pre ++ e' :: post') ++ [y] := by rw [htr]; simp
    have := List.append_inj' htr' rfl
    exact h pre e' post' this.1

/-- The relation holds after every history without a clash. -/
theorem rel_after (ops : List Op) : NoClash (trace ops) → Rel (after ops) (view (trace ops)) := by
  induction ops using snoc_induction with
  | nil => intro _; exact rel_init
  | snoc ops op ih =>
    intro h
    rw [trace_snoc] at h ⊢
    obtain ⟨h1, h2⟩ := noClash_snoc h
    rw [after_snoc, view_snoc]
    exact rel_step _ (wf_after ops) _ (ih h1) op h2

end Wamp.Broker
