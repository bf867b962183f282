import Verif.Spec.BrokerTable
import Verif.Props.Broker

/-! # The broker is a table: C79 -/

namespace Wamp.Broker
open Spec.Pub

/-- The table after a sequence of calls. -/
def tableAfter (ops : List Op) : Table := ops.foldl (fun t op => (t.step op).1) {}

/-- The table that belongs to a view. -/
abbrev tableOf (v : View) : Table := ⟨v.known, v.held, v.drawn + 1⟩

theorem find_none_iff {h : List Holding} {t : String} : h.find? (·.topic = t) = none ↔ h.any (·.topic = t) = false := by
  rw [List.find?_eq_none, List.any_eq_false]

theorem table_step (ops : List Op) (hl : ops.length < 2 ^ 53) (op : Op) :
    (outcome ops op).toOption = ((tableOf (view (trace ops))).step op).2 ∧
    ((tableOf (view (trace ops))).step op).1 = tableOf (view (trace (ops ++ [op]))) := by
  have hc := C19_no_clash ops (Nat.le_of_lt hl)
  have hr := rel_after ops hc
  have hw := wf_after ops
  have hd : (view (trace ops)).drawn < 2 ^ 53 := Nat.lt_of_le_of_lt (drawn_le_length ops) hl
  have hn : IdGen.draw (view (trace ops)).drawn = ((view (trace ops)).drawn : Int) + 1 := draw_small hd
  rw [trace_snoc, view_snoc]
  change _ ∧ _ = tableOf ((view (trace ops)).next (op, outcome ops op))
  cases op with
  | addSession d =>
    have hk := hr.known d.sessionId.val
    rw [← Dict.contains_iff_get] at hk
    simp only [outcome, step, addSession, Table.step, tableOf]
    by_cases h : (after ops).subscriptionsBySession.contains d.sessionId.val = true
    · rw [if_pos h, if_pos (show _ ∈ (tableOf _).known from hk.2 h)]; exact ⟨rfl, rfl⟩
    · rw [if_neg h, if_neg (show _ ∉ (tableOf _).known from fun h' => h (hk.1 h'))]; exact ⟨rfl, rfl⟩
  | removeSession s =>
    simp only [Table.step, tableOf]
    by_cases h : s ∈ (view (trace ops)).known
    · rw [(C25_remove_known ops s h).1, if_pos (show s ∈ (tableOf _).known from h)]; exact ⟨rfl, rfl⟩
    · obtain ⟨⟨e, h1⟩, -⟩ := C25_remove_unknown ops s h
      rw [h1, if_neg (show _ ∉ (tableOf _).known from h)]; exact ⟨rfl, rfl⟩
  | receiveMessage s m =>
    cases m with
    | subscribe m =>
      simp only [Table.step, tableOf]
      by_cases h : s ∈ (view (trace ops)).known
      · rw [if_pos (show _ ∈ (tableOf _).known from h)]
        obtain ⟨d, hs⟩ := (hr.known s).1 h
        have ho := subscribe_reply (after ops) s m d hs
        change outcome ops _ = _ at ho
        rw [ho]
        cases hf : (view (trace ops)).held.find? (·.topic = m.topic) with
        | none =>
          have ha := find_none_iff.1 hf
          have ht : (after ops).subscriptionsByTopic.get m.topic = none := by
            cases ht : (after ops).subscriptionsByTopic.get m.topic with
            | none => rfl
            | some r =>
              have := hr.subs_some ht
              rw [subscribers_nil_iff.2 ha] at this
              exact absurd this.symm (hw.top _ _ ht).2.1
          have hs' : s ∉ (view (trace ops)).subscribers m.topic := by rw [subscribers_nil_iff.2 ha]; simp
          simp only [ht, hr.gen, idgen_next, hn, Except.toOption, View.next, subscribed_new hs', ha, PyInt.val]
          exact ⟨trivial, by simp⟩
        | some x =>
          have hx := List.mem_of_find?_eq_some hf
          have hxt : x.topic = m.topic := by simpa using List.find?_some hf
          obtain ⟨r, d', k1, k2, -, -⟩ := hr.ids x hx
          rw [hxt] at k1
          have ha : (view (trace ops)).held.any (·.topic = m.topic) = true :=
            List.any_eq_true.2 ⟨x, hx, by simpa using hxt⟩
          simp only [k1, k2, Except.toOption, View.next, ha, if_true, PyInt.val]
          refine ⟨trivial, ?_⟩
          by_cases hs' : s ∈ (view (trace ops)).subscribers m.topic
          · rw [subscribed_same hs']
            have : s ∈ subscribersOf (view (trace ops)).held m.topic := hs'
            rw [if_pos this]
          · rw [subscribed_new hs']
            have : s ∉ subscribersOf (view (trace ops)).held m.topic := hs'
            rw [if_neg this]
      · obtain ⟨⟨e, h1⟩, -⟩ := C22_subscribe_unknown ops s m h
        rw [h1, if_neg (show _ ∉ (tableOf _).known from h)]; exact ⟨rfl, rfl⟩
    | unsubscribe m =>
      simp only [Table.step, tableOf]
      by_cases h : ∃ x ∈ (view (trace ops)).held, x.session = s ∧ x.id = m.subscriptionId.val
      · rw [if_pos (show ∃ x ∈ (tableOf _).held, _ from h)]
        obtain ⟨⟨s', t, i⟩, hx, e1, e2⟩ := h
        simp only at e1 e2; subst e1 e2
        rw [(C24_unsubscribe_held ops hc s' t m hx).1]
        exact ⟨rfl, rfl⟩
      · obtain ⟨⟨e, h1⟩, -⟩ := C24_unsubscribe_not_held ops hc s m (fun t hx => h ⟨_, hx, rfl, rfl⟩)
        rw [h1, if_neg (show ¬ ∃ x ∈ (tableOf _).held, _ from h)]; exact ⟨rfl, rfl⟩
    | _ => exact ⟨rfl, rfl⟩
  | receivePublish s m =>
    simp only [Table.step, tableOf]
    by_cases h : s ∈ (view (trace ops)).known
    · rw [if_pos (show _ ∈ (tableOf _).known from h)]
      have hk : (after ops).subscriptionsBySession.contains s = true := Dict.contains_iff_get.2 ((hr.known s).1 h)
      have hsub : subscribersOf (view (trace ops)).held m.topic = _ := hr.subs m.topic
      simp only [outcome, step, receivePublish, if_pos hk, hr.gen, idgen_next, hn, Except.map, Except.toOption, View.next, hsub]
      refine ⟨?_, by simp⟩
      cases ht : (after ops).subscriptionsByTopic.get m.topic with
      | none =>
        have : (view (trace ops)).held.find? (·.topic = m.topic) = none :=
          find_none_iff.2 (subscribers_nil_iff.1 (hr.subs_none ht))
        rw [this]
        cases PyDict.flag m.options "acknowledge" <;> rfl
      | some r =>
        cases hf : (view (trace ops)).held.find? (·.topic = m.topic) with
        | none =>
          have := subscribers_nil_iff.2 (find_none_iff.1 hf)
          rw [hr.subs_some ht] at this
          exact absurd this (hw.top _ _ ht).2.1
        | some x =>
          have hx := List.mem_of_find?_eq_some hf
          have hxt : x.topic = m.topic := by simpa using List.find?_some hf
          obtain ⟨r', d', k1, k2, -, -⟩ := hr.ids x hx
          rw [hxt, ht] at k1; cases k1
          cases PyDict.flag m.options "acknowledge" <;> simp [k2]
    · obtain ⟨⟨e, h1⟩, -⟩ := C19_unknown_publisher ops s m h
      rw [h1, if_neg (show _ ∉ (tableOf _).known from h)]; exact ⟨rfl, rfl⟩
  | hasSubscription t =>
    refine ⟨?_, rfl⟩
    obtain ⟨r, h1, -, h2⟩ := C26_has_subscription ops t
    rw [h1]
    simp only [Table.step, Except.toOption, Option.some.injEq, Out.bool.injEq]
    rw [Bool.eq_iff_iff, h2 hc, List.any_eq_true]
    simp only [mem_subscribers, decide_eq_true_eq]
    constructor
    · rintro ⟨s, x, hx, -, ht⟩; exact ⟨x, hx, ht⟩
    · rintro ⟨x, hx, ht⟩; exact ⟨_, x, hx, rfl, ht⟩

theorem answers_append (ops : List Op) (op : Op) : ∀ t : Table, t.answers (ops ++ [op]) =
    t.answers ops ++ [((ops.foldl (fun t op => (t.step op).1) t).step op).2] := by
  induction ops with
  | nil => intro t; rfl
  | cons a ops ih => intro t; simp only [List.cons_append, Table.answers, ih, List.foldl_cons]

theorem tableAfter_eq (ops : List Op) : ops.length ≤ 2 ^ 53 → tableAfter ops = tableOf (view (trace ops)) := by
  induction ops using snoc_induction with
  | nil => intro _; rfl
  | snoc ops op ih =>
    intro hl
    have h1 : ops.length + 1 ≤ 2 ^ 53 := by rw [List.length_append] at hl; exact hl
    have : tableAfter (ops ++ [op]) = ((tableAfter ops).step op).1 := by simp [tableAfter, List.foldl_append]
    rw [this, ih (by omega), (table_step ops (by omega) op).2]

/-- The broker answers every sequence of calls as the table does, as long as its ids last, and every failure is a
`ValueError`. -/
theorem C79_broker_is_table (ops : List Op) (hl : ops.length ≤ 2 ^ 53) :
    (trace ops).map (·.1) = ops ∧ (trace ops).map (·.2.toOption) = ({} : Table).answers ops ∧
    ∀ e ∈ trace ops, ∀ x, e.2 = .error x → ∃ msg, x = .valueError msg := by
  induction ops using snoc_induction with
  | nil => exact ⟨rfl, rfl, by intro e he; cases he⟩
  | snoc ops op ih =>
    have h1 : ops.length + 1 ≤ 2 ^ 53 := by rw [List.length_append] at hl; exact hl
    obtain ⟨i1, i2, i3⟩ := ih (by omega)
    rw [trace_snoc, List.map_append, List.map_append, i1, i2, answers_append]
    refine ⟨rfl, ?_, ?_⟩
    · congr 1
      change [(outcome ops op).toOption] = [((tableAfter ops).step op).2]
      rw [tableAfter_eq ops (by omega), (table_step ops (by omega) op).1]
    · intro e he x hx
      rcases List.mem_append.1 he with he | he
      · exact i3 e he x hx
      · rw [List.mem_singleton.1 he] at hx
        exact (C29_failures_are_atomic ops [] op x hx).1

/-- The worked history of `Props/Broker.lean`, as the table tells it. -/
example : ({} : Table).answers (demo ++ [.receivePublish 1 ⟨.int 9, "a", some [.int 5], none, []⟩]) =
    (trace (demo ++ [.receivePublish 1 ⟨.int 9, "a", some [.int 5], none, []⟩])).map (·.2.toOption) ∧
    (tableAfter demo).held = [⟨2, "a", 1⟩, ⟨2, "b", 2⟩, ⟨1, "a", 1⟩] := by decide

end Wamp.Broker
