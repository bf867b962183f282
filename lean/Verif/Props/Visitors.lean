import Verif.Spec.Visitors
import Verif.Props.Present

/-! # Visitors of a broker: C135 -/

namespace Wamp.Spec.Visitors
open Wamp.Spec.Present
open Wamp.Spec.Pub (Table Holding subscribersOf)
open Wamp.Broker (Op Out tableAfter)

/-- Who is subscribed to what, without the ids. -/
def pairs (h : List Holding) : List (Int × String) := h.map fun x => (x.session, x.topic)

/-- The second table is the first without the visitors, but for the ids. -/
structure Beside (q : Int → Bool) (t t' : Table) : Prop where
  known : t'.known = t.known.filter fun s => !q s
  held : pairs t'.held = (pairs t.held).filter fun x => !q x.1

theorem mem_subscribersOf {h : List Holding} {s : Int} {topic : String} : s ∈ subscribersOf h topic ↔ (s, topic) ∈ pairs h := by
  simp only [subscribersOf, pairs, List.mem_map, List.mem_filter, decide_eq_true_eq, Prod.mk.injEq]
  constructor
  · rintro ⟨x, ⟨h1, h2⟩, h3⟩; exact ⟨x, h1, h3, h2⟩
  · rintro ⟨x, h1, h2, h3⟩; exact ⟨x, ⟨h1, h3⟩, h2⟩

theorem subscribersOf_pairs (h : List Holding) (topic : String) :
    subscribersOf h topic = ((pairs h).filter fun x => x.2 = topic).map (·.1) := by
  simp only [subscribersOf, pairs, List.filter_map, List.map_map]
  rfl

theorem Beside.subscribers {q : Int → Bool} {t t' : Table} (h : Beside q t t') (topic : String) :
    subscribersOf t'.held topic = (subscribersOf t.held topic).filter fun s => !q s := by
  rw [subscribersOf_pairs, subscribersOf_pairs, h.held, List.filter_filter, List.filter_map, List.filter_filter]
  congr 1
  apply List.filter_congr
  intro x _
  simp [Bool.and_comm]

theorem Beside.mem {q : Int → Bool} {t t' : Table} (h : Beside q t t') {s : Int} (hs : q s = false) (topic : String) :
    s ∈ subscribersOf t'.held topic ↔ s ∈ subscribersOf t.held topic := by
  rw [h.subscribers]; simp [hs]

theorem Beside.knows {q : Int → Bool} {t t' : Table} (h : Beside q t t') {s : Int} (hs : q s = false) : s ∈ t'.known ↔ s ∈ t.known := by
  rw [h.known]; simp [hs]

theorem pairs_filter (h : List Holding) (p : Int × String → Bool) : pairs (h.filter fun x => p (x.session, x.topic)) = (pairs h).filter p := by
  simp only [pairs, List.filter_map]; rfl

theorem pairs_leave (h : List Holding) (s : Int) : pairs (h.filter fun x => x.session ≠ s) = (pairs h).filter fun x => x.1 ≠ s :=
  pairs_filter h fun x => x.1 ≠ s

/-- Unsubscribing removes a pair. -/
theorem pairs_unsubscribe {t : Table} (ok : PubOk t) {s : Int} {topic : String} {i : Int} (hx : ⟨s, topic, i⟩ ∈ t.held) :
    pairs (t.held.filter fun x => ¬ (x.session = s ∧ x.id = i)) = (pairs t.held).filter fun x => !decide (x = (s, topic)) := by
  rw [← pairs_filter]
  congr 1
  apply List.filter_congr
  intro x hm
  have := ok.topic x hm _ hx
  simp only [Prod.mk.injEq, decide_not, this]

/-- How a table changes that gets a SUBSCRIBE from a connected session. -/
theorem pairs_subscribe (t : Table) (s : Int) (m : Subscribe) (hk : s ∈ t.known) :
    (t.step (.receiveMessage s (.subscribe m))).1.known = t.known ∧
    pairs (t.step (.receiveMessage s (.subscribe m))).1.held =
      if s ∈ subscribersOf t.held m.topic then pairs t.held else pairs t.held ++ [(s, m.topic)] := by
  simp only [Table.step, if_pos hk]
  split
  · rename_i hn
    have : s ∉ subscribersOf t.held m.topic := by
      rw [List.find?_eq_none] at hn
      simp only [subscribersOf, List.mem_map, List.mem_filter, not_exists, not_and]
      intro x hx; exact absurd hx.2 (hn x hx.1)
    rw [if_neg this]
    exact ⟨rfl, by simp [pairs]⟩
  · refine ⟨rfl, ?_⟩
    simp only
    split <;> simp [pairs]

theorem beside_visitor {q : Int → Bool} {t t' : Table} (ok : PubOk t) (h : Beside q t t') (op : Op) (hq : visits q op = true) :
    Beside q (t.step op).1 t' := by
  cases op with
  | addSession d =>
    simp only [visits] at hq
    simp only [Table.step]
    split
    · exact h
    · exact ⟨by simp [h.known, hq], h.held⟩
  | removeSession s =>
    simp only [visits] at hq
    simp only [Table.step]
    split
    · refine ⟨?_, ?_⟩
      · rw [h.known]; simp only [List.filter_filter]
        apply List.filter_congr
        intro x _
        by_cases e : x = s
        · subst e; simp [hq]
        · simp [e]
      · rw [h.held]
        rw [pairs_leave, List.filter_filter]
        apply List.filter_congr
        intro x _
        by_cases e : x.1 = s
        · simp [e, hq]
        · simp [e]
    · exact h
  | receivePublish s m =>
    simp only [Table.step]
    split
    · exact ⟨h.known, h.held⟩
    · exact h
  | hasSubscription topic => cases hq
  | receiveMessage s m =>
    simp only [visits] at hq
    cases m with
    | subscribe m =>
      by_cases hk : s ∈ t.known
      · obtain ⟨h1, h2⟩ := pairs_subscribe t s m hk
        refine ⟨by rw [h1, h.known], ?_⟩
        rw [h2, h.held]
        split
        · rfl
        · simp [List.filter_append, hq]
      · simp only [Table.step, if_neg hk]; exact h
    | unsubscribe m =>
      simp only [Table.step]
      split
      · rename_i hx
        obtain ⟨⟨s', topic, i⟩, hx, rfl, hi⟩ := hx
        refine ⟨h.known, ?_⟩
        simp only at hi
        subst hi
        rw [pairs_unsubscribe ok hx, h.held, List.filter_filter]
        apply List.filter_congr
        intro x _
        by_cases e : x = (s', topic)
        · subst e; simp [hq]
        · simp [e]
      · exact h
    | _ => exact h

theorem beside_other {q : Int → Bool} {t t' : Table} (h : Beside q t t') (op : Op) (hq : visits q op = false)
    (hu : ∀ s m, op ≠ .receiveMessage s (.unsubscribe m)) : Beside q (t.step op).1 (t'.step op).1 := by
  cases op with
  | addSession d =>
    simp only [visits] at hq
    simp only [Table.step]
    by_cases hk : d.sessionId.val ∈ t.known
    · rw [if_pos hk, if_pos ((h.knows hq).2 hk)]; exact h
    · rw [if_neg hk, if_neg (mt (h.knows hq).1 hk)]
      exact ⟨by simp [h.known, hq], h.held⟩
  | removeSession s =>
    simp only [visits] at hq
    simp only [Table.step]
    by_cases hk : s ∈ t.known
    · rw [if_pos hk, if_pos ((h.knows hq).2 hk)]
      refine ⟨?_, ?_⟩
      · simp only [h.known, List.filter_filter]
        apply List.filter_congr; intro x _; simp [Bool.and_comm]
      · rw [pairs_leave, pairs_leave, h.held, List.filter_filter, List.filter_filter]
        apply List.filter_congr; intro x _; simp [Bool.and_comm]
    · rw [if_neg hk, if_neg (mt (h.knows hq).1 hk)]; exact h
  | receivePublish s m =>
    have hp : ∀ u : Table, (u.step (.receivePublish s m)).1.known = u.known ∧ (u.step (.receivePublish s m)).1.held = u.held := by
      intro u; simp only [Table.step]; split <;> exact ⟨rfl, rfl⟩
    exact ⟨by rw [(hp t).1, (hp t').1, h.known], by rw [(hp t).2, (hp t').2, h.held]⟩
  | hasSubscription topic => exact h
  | receiveMessage s m =>
    simp only [visits] at hq
    cases m with
    | subscribe m =>
      by_cases hk : s ∈ t.known
      · obtain ⟨h1, h2⟩ := pairs_subscribe t s m hk
        obtain ⟨h1', h2'⟩ := pairs_subscribe t' s m ((h.knows hq).2 hk)
        refine ⟨by rw [h1, h1', h.known], ?_⟩
        rw [h2, h2', h.held]
        by_cases hm : s ∈ subscribersOf t.held m.topic
        · rw [if_pos hm, if_pos ((h.mem hq _).2 hm)]
        · rw [if_neg hm, if_neg (mt (h.mem hq _).1 hm)]
          simp [List.filter_append, hq]
      · simp only [Table.step, if_neg hk, if_neg (mt (h.knows hq).1 hk)]; exact h
    | unsubscribe m => exact absurd rfl (hu s m)
    | _ => exact h

theorem beside_unsubscribe {q : Int → Bool} {t t' : Table} (ok : PubOk t) (ok' : PubOk t') (h : Beside q t t') {s : Int}
    {topic : String} {m m' : Unsubscribe} (hm : ⟨s, topic, m.subscriptionId.val⟩ ∈ t.held)
    (hm' : ⟨s, topic, m'.subscriptionId.val⟩ ∈ t'.held) :
    Beside q (t.step (.receiveMessage s (.unsubscribe m))).1 (t'.step (.receiveMessage s (.unsubscribe m'))).1 := by
  simp only [Table.step]
  rw [if_pos ⟨_, hm, rfl, rfl⟩, if_pos ⟨_, hm', rfl, rfl⟩]
  refine ⟨h.known, ?_⟩
  rw [pairs_unsubscribe ok hm, pairs_unsubscribe ok' hm', h.held, List.filter_filter, List.filter_filter]
  apply List.filter_congr; intro x _; simp [Bool.and_comm]

theorem beside {q : Int → Bool} {ops ops' : List Op} (h : Without q ops ops') (hl : ops.length ≤ 2 ^ 53) :
    ops'.length ≤ ops.length ∧ Beside q (tableAfter ops) (tableAfter ops') := by
  induction h with
  | start => exact ⟨Nat.le_refl _, rfl, rfl⟩
  | visitor h op hq ih =>
    rw [List.length_append] at hl ⊢
    obtain ⟨h1, h2⟩ := ih (by omega)
    refine ⟨by omega, ?_⟩
    rw [pub_table_snoc]; exact beside_visitor (pubOk_after _) h2 op hq
  | other h op hq hu ih =>
    simp only [List.length_append] at hl ⊢
    obtain ⟨h1, h2⟩ := ih (by omega)
    refine ⟨by omega, ?_⟩
    rw [pub_table_snoc, pub_table_snoc]; exact beside_other h2 op hq hu
  | unsubscribe h s hq topic m m' hm hm' _ ih =>
    simp only [List.length_append] at hl ⊢
    obtain ⟨h1, h2⟩ := ih (by omega)
    refine ⟨by simp only [List.length_singleton]; omega, ?_⟩
    rw [pub_table_snoc, pub_table_snoc]
    exact beside_unsubscribe (pubOk_after _) (pubOk_after _) h2 (by rw [Broker.tableAfter_eq _ (by omega)]; exact hm)
      (by rw [Broker.tableAfter_eq _ (by omega)]; exact hm')
  | mistaken h s hq m m' hm hm' _ ih =>
    simp only [List.length_append] at hl ⊢
    obtain ⟨h1, h2⟩ := ih (by omega)
    refine ⟨by simp only [List.length_singleton]; omega, ?_⟩
    rw [pub_table_snoc, pub_table_snoc]
    simp only [Table.step]
    rw [if_neg, if_neg]
    · exact h2
    · rintro ⟨x, hx, e1, e2⟩
      rw [Broker.tableAfter_eq _ (by omega)] at hx
      exact hm' x hx e1 e2
    · rintro ⟨x, hx, e1, e2⟩
      rw [Broker.tableAfter_eq _ (by omega)] at hx
      exact hm x hx e1 e2

/-- What visitors did at a broker cannot be told once they have left: whatever is done from then on has the outcome it has at a
broker they never came to and where all others did the same. -/
theorem C135_left (q : Int → Bool) (ops ops' : List Op) (hl : ops.length ≤ 2 ^ 53) (h : Without q ops ops')
    (hq : ∀ s, q s = true → s ∉ (Pub.view (Broker.trace ops)).known) : Brokers ops ops' := by
  obtain ⟨h1, h2⟩ := beside h hl
  have ht := Broker.tableAfter_eq ops hl
  have hk : ∀ s ∈ (tableAfter ops).known, q s = false := by
    intro s hs
    rw [ht] at hs
    cases e : q s with
    | false => rfl
    | true => exact absurd hs (hq s e)
  refine C128_broker ops ops' hl (by omega) (pubSame_of_table hl (by omega) ?_ ?_)
  · intro s
    rw [h2.known, List.mem_filter]
    exact ⟨fun hs => ⟨hs, by simp [hk s hs]⟩, fun hs => hs.1⟩
  · intro topic
    rw [h2.subscribers, eq_comm, List.filter_eq_self]
    intro s hs
    obtain ⟨x, hx, rfl⟩ := List.mem_map.1 hs
    have := AsNew.pub_held_known ops {} (by intro x hx; cases hx) x (List.mem_filter.1 hx).1
    simp [hk _ this]

/-- While they are there, a PUBLISH of another reaches the same of the others, with the same contents, in the same order; besides it
reaches visitors that subscribed. -/
theorem C135_published (q : Int → Bool) (ops ops' : List Op) (hl : ops.length < 2 ^ 53) (h : Without q ops ops') (s : Int)
    (hs : q s = false) (m : Publish) (p' : Publication) (hp : Broker.outcome ops' (.receivePublish s m) = .ok (.publication p')) :
    ∃ p, Broker.outcome ops (.receivePublish s m) = .ok (.publication p) ∧
      p'.recipients = (p.recipients.filter fun r => !q r) ∧ (p'.ack.isSome ↔ p.ack.isSome) ∧
      (p'.recipients ≠ [] → ∃ e e', p.event = some e ∧ p'.event = some e' ∧ e'.args = e.args ∧ e'.kwargs = e.kwargs ∧ e'.details = e.details) := by
  obtain ⟨h1, h2⟩ := beside h (by omega)
  have e := (Broker.table_step ops hl (.receivePublish s m)).1
  have e' := (Broker.table_step ops' (by omega) (.receivePublish s m)).1
  rw [← Broker.tableAfter_eq _ (by omega)] at e e'
  rw [hp] at e'
  by_cases hk : s ∈ (tableAfter ops').known
  · have hk2 := (h2.knows hs).1 hk
    simp only [Table.step, if_pos hk, if_pos hk2] at e e'
    injection e' with e'
    injection e' with e'
    cases ho : Broker.outcome ops (.receivePublish s m) with
    | error x => rw [ho] at e; cases e
    | ok out =>
      rw [ho] at e
      injection e with e
      subst e
      refine ⟨_, rfl, ?_, ?_, ?_⟩
      · rw [e']; exact h2.subscribers _
      · rw [e']; by_cases ha : PyDict.flag m.options "acknowledge" = true <;> simp [ha]
      · intro hr
        rw [e'] at hr
        obtain ⟨r, hr⟩ := List.exists_mem_of_ne_nil _ hr
        have hr' : r ∈ subscribersOf (tableAfter ops).held m.topic := by
          have := h2.subscribers m.topic ▸ hr
          exact (List.mem_filter.1 this).1
        have some_of : ∀ (l : List Holding) (r : Int), r ∈ subscribersOf l m.topic → ∃ x, l.find? (·.topic = m.topic) = some x := by
          intro l r hr
          obtain ⟨x, hx, -⟩ := List.mem_map.1 hr
          obtain ⟨h3, h4⟩ := List.mem_filter.1 hx
          cases hf : l.find? (·.topic = m.topic) with
          | none => rw [List.find?_eq_none] at hf; exact absurd h4 (hf x h3)
          | some y => exact ⟨y, rfl⟩
        obtain ⟨x, hx⟩ := some_of _ r hr'
        obtain ⟨x', hx'⟩ := some_of _ r hr
        rw [e']
        simp only [hx, hx', Option.map_some]
        exact ⟨_, _, rfl, rfl, rfl, rfl, rfl⟩
  · simp only [Table.step, if_neg hk] at e'; cases e'

/-- Whatever another asks for is granted in both histories or refused in both. -/
theorem C135_granted (q : Int → Bool) (ops ops' : List Op) (hl : ops.length < 2 ^ 53) (h : Without q ops ops') (op : Op)
    (hq : visits q op = false) (hu : ∀ s m, op ≠ .receiveMessage s (.unsubscribe m)) :
    (Broker.outcome ops op).toOption.isSome = (Broker.outcome ops' op).toOption.isSome := by
  obtain ⟨h1, h2⟩ := beside h (by omega)
  rw [(Broker.table_step ops hl op).1, (Broker.table_step ops' (by omega) op).1, ← Broker.tableAfter_eq _ (by omega),
    ← Broker.tableAfter_eq _ (by omega)]
  cases op with
  | addSession d =>
    simp only [Table.step]
    by_cases hk : d.sessionId.val ∈ (tableAfter ops).known
    · rw [if_pos hk, if_pos ((h2.knows hq).2 hk)]
    · rw [if_neg hk, if_neg (mt (h2.knows hq).1 hk)]
  | removeSession s =>
    simp only [Table.step]
    by_cases hk : s ∈ (tableAfter ops).known
    · rw [if_pos hk, if_pos ((h2.knows hq).2 hk)]
    · rw [if_neg hk, if_neg (mt (h2.knows hq).1 hk)]
  | receivePublish s m =>
    simp only [Table.step]
    by_cases hk : s ∈ (tableAfter ops).known
    · rw [if_pos hk, if_pos ((h2.knows hq).2 hk)]; rfl
    · rw [if_neg hk, if_neg (mt (h2.knows hq).1 hk)]
  | hasSubscription topic => rfl
  | receiveMessage s m =>
    cases m with
    | subscribe m =>
      simp only [Table.step]
      by_cases hk : s ∈ (tableAfter ops).known
      · rw [if_pos hk, if_pos ((h2.knows hq).2 hk)]
        cases (tableAfter ops).held.find? (·.topic = m.topic) <;> cases (tableAfter ops').held.find? (·.topic = m.topic) <;> rfl
      · rw [if_neg hk, if_neg (mt (h2.knows hq).1 hk)]
    | unsubscribe m => exact absurd rfl (hu s m)
    | _ => rfl

/-! A visitor, 9, that subscribes to the topic of another, publishes and leaves: meanwhile the other unsubscribed and subscribed again,
with other ids than without the visitor. -/

def subscribe (s : Int) (topic : String) : Op := .receiveMessage s (.subscribe { requestId := .int 1, topic := topic })
def unsubscribe (s i : Int) : Op := .receiveMessage s (.unsubscribe { requestId := .int 2, subscriptionId := .int i })

def visited : List Op :=
  [.addSession { sessionId := .int 9, realm := "r" }, .addSession { sessionId := .int 1, realm := "r" }, subscribe 9 "u", subscribe 9 "v",
   subscribe 9 "t", subscribe 1 "t", .receivePublish 9 { requestId := .int 3, topic := "t" }, unsubscribe 1 3, unsubscribe 1 1, subscribe 1 "t", .removeSession 9]

def unvisited : List Op :=
  [.addSession { sessionId := .int 1, realm := "r" }, subscribe 1 "t", unsubscribe 1 1, unsubscribe 1 9, subscribe 1 "t"]

theorem visited_without : Without (· == 9) visited unvisited := by
  have h0 := Without.start (q := (· == 9))
  have h1 := (h0.visitor (.addSession { sessionId := .int 9, realm := "r" }) rfl).other (.addSession { sessionId := .int 1, realm := "r" }) rfl
    (by intro _ _ h; cases h)
  have h2 := (((h1.visitor (subscribe 9 "u") rfl).visitor (subscribe 9 "v") rfl).visitor (subscribe 9 "t") rfl).other (subscribe 1 "t") rfl (by intro _ _ h; cases h)
  have h3 := (h2.visitor (.receivePublish 9 { requestId := .int 3, topic := "t" }) rfl).unsubscribe 1 rfl "t"
    { requestId := .int 2, subscriptionId := .int 3 } { requestId := .int 2, subscriptionId := .int 1 } (by decide +kernel) (by decide +kernel) rfl
  have h4 := h3.mistaken 1 rfl { requestId := .int 2, subscriptionId := .int 1 } { requestId := .int 2, subscriptionId := .int 9 }
    (by decide +kernel) (by decide +kernel) rfl
  exact (h4.other (subscribe 1 "t") rfl (by intro _ _ h; cases h)).visitor (.removeSession 9) rfl

example : Brokers visited unvisited :=
  C135_left (· == 9) visited unvisited (by decide) visited_without (by
    intro s hs
    have : s = 9 := by simpa using hs
    subst this; decide +kernel)

/-- Before the visitor has left, a PUBLISH reaches it as well. -/
example : (Broker.outcome visited.dropLast (.receivePublish 1 { requestId := .int 4, topic := "t" })).toOption.map (fun o =>
      match o with | .publication p => p.recipients | _ => []) = some [9, 1] ∧
    (Broker.outcome unvisited (.receivePublish 1 { requestId := .int 4, topic := "t" })).toOption.map (fun o =>
      match o with | .publication p => p.recipients | _ => []) = some [1] := by decide +kernel

/-- The ids are other ones. -/
example : (Pub.view (Broker.trace visited)).held = [⟨1, "t", 3⟩] ∧ (Pub.view (Broker.trace unvisited)).held = [⟨1, "t", 2⟩] := by decide +kernel

end Wamp.Spec.Visitors
