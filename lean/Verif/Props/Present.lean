import Verif.Spec.Present
import Verif.Props.AsNew
import Verif.Props.Slots

/-! # Only the present matters: C128 -/

namespace Wamp.Spec.Present
open Wamp.Spec.Tenants
open Wamp.Spec.Naming (OneToOne)
open Wamp.Spec.AsNew (pub_answers_append rpc_answers_append rpc_answers_length ended ended_eq rpc_held_known)

/-! ## The ids -/

/-- New ids by distance, ids in use as in `f`, all others out of the way. -/
def joined (n n' : Int) (f : Int → Option Int) (i : Int) : Int :=
  if n ≤ i then i - n + n' else match f i with
    | some j => j
    | none => i - n

theorem joined_one {n n' : Int} {f : Int → Option Int} (hn : 1 ≤ n') (hr : ∀ i j, f i = some j → 1 ≤ j ∧ j < n')
    (hf : ∀ i i' j, f i = some j → f i' = some j → i = i') : OneToOne (joined n n' f) := by
  intro x y h
  unfold joined at h
  by_cases hx : n ≤ x <;> by_cases hy : n ≤ y
  · rw [if_pos hx, if_pos hy] at h; omega
  · rw [if_pos hx, if_neg hy] at h
    cases hfy : f y with
    | none => rw [hfy] at h; simp only at h; omega
    | some j => rw [hfy] at h; simp only at h; have := hr y j hfy; omega
  · rw [if_neg hx, if_pos hy] at h
    cases hfx : f x with
    | none => rw [hfx] at h; simp only at h; omega
    | some j => rw [hfx] at h; simp only at h; have := hr x j hfx; omega
  · rw [if_neg hx, if_neg hy] at h
    cases hfx : f x with
    | none =>
      rw [hfx] at h
      cases hfy : f y with
      | none => rw [hfy] at h; simp only at h; omega
      | some j => rw [hfy] at h; simp only at h; have := hr y j hfy; omega
    | some i =>
      rw [hfx] at h
      cases hfy : f y with
      | none => rw [hfy] at h; simp only at h; have := hr x i hfx; omega
      | some j => rw [hfy] at h; simp only at h; exact hf x y i hfx (h ▸ hfy)

theorem joined_new {n n' : Int} (f : Int → Option Int) {i : Int} (h : n ≤ i) : joined n n' f i = i - n + n' := if_pos h

theorem joined_old {n n' : Int} {f : Int → Option Int} {i j : Int} (h : i < n) (hf : f i = some j) : joined n n' f i = j := by
  unfold joined; rw [if_neg (by omega), hf]

/-! ## The broker -/

section
open Wamp.Spec.Pub (Table Holding subscribersOf)
open Wamp.Broker (Op Out tableAfter)

/-- Ids in use have been given out, and each belongs to one topic. -/
structure PubOk (t : Table) : Prop where
  pos : 1 ≤ t.next
  range : ∀ x ∈ t.held, 1 ≤ x.id ∧ x.id < t.next
  topic : ∀ x ∈ t.held, ∀ y ∈ t.held, x.id = y.id ↔ x.topic = y.topic
  once : ∀ x ∈ t.held, ∀ y ∈ t.held, x.session = y.session → x.topic = y.topic → x = y

theorem pubOk_sub {t : Table} (h : PubOk t) {k : List Int} {l : List Holding} (hl : ∀ x ∈ l, x ∈ t.held) :
    PubOk { t with known := k, held := l } :=
  ⟨h.pos, fun x hx => h.range x (hl x hx), fun x hx y hy => h.topic x (hl x hx) y (hl y hy),
    fun x hx y hy => h.once x (hl x hx) y (hl y hy)⟩

theorem pubOk_step {t : Table} (h : PubOk t) (op : Op) : PubOk (t.step op).1 := by
  cases op with
  | addSession d =>
    simp only [Table.step]
    split
    · exact h
    · exact pubOk_sub h fun x hx => hx
  | removeSession s =>
    simp only [Table.step]
    split
    · exact pubOk_sub h fun x hx => (List.mem_filter.1 hx).1
    · exact h
  | hasSubscription x => exact h
  | receivePublish s m =>
    simp only [Table.step]
    split
    · exact ⟨by have := h.pos; simp only; omega, fun x hx => by have := h.range x hx; simp only; omega, h.topic, h.once⟩
    · exact h
  | receiveMessage s m =>
    cases m with
    | subscribe m =>
      simp only [Table.step]
      split
      · split
        · rename_i hf
          have hn : ∀ x ∈ t.held, x.topic ≠ m.topic := fun x hx e => by
            have := List.find?_eq_none.1 hf x hx; simp [e] at this
          refine ⟨by have := h.pos; simp only; omega, ?_, ?_, ?_⟩
          · intro x hx
            rcases List.mem_append.1 hx with hx | hx
            · have := h.range x hx; simp only; omega
            · rw [List.mem_singleton.1 hx]; have := h.pos; simp only; omega
          · intro x hx y hy
            rcases List.mem_append.1 hx with hx | hx <;> rcases List.mem_append.1 hy with hy | hy
            · exact h.topic x hx y hy
            · rw [List.mem_singleton.1 hy]
              exact ⟨fun e => absurd e (by have := h.range x hx; simp only; omega), fun e => absurd e (hn x hx)⟩
            · rw [List.mem_singleton.1 hx]
              exact ⟨fun e => absurd e (by have := h.range y hy; simp only; omega), fun e => absurd e.symm (hn y hy)⟩
            · rw [List.mem_singleton.1 hx, List.mem_singleton.1 hy]; simp
          · intro x hx y hy e1 e2
            rcases List.mem_append.1 hx with hx | hx <;> rcases List.mem_append.1 hy with hy | hy
            · exact h.once x hx y hy e1 e2
            · rw [List.mem_singleton.1 hy] at e2; exact absurd e2 (hn x hx)
            · rw [List.mem_singleton.1 hx] at e2; exact absurd e2.symm (hn y hy)
            · rw [List.mem_singleton.1 hx, List.mem_singleton.1 hy]
        · rename_i z hf
          have hz := List.mem_of_find?_eq_some hf
          have hzt : z.topic = m.topic := by simpa using List.find?_some hf
          split
          · exact pubOk_sub h fun x hx => hx
          · rename_i hns
            have hn : ∀ x ∈ t.held, x.session = s → x.topic ≠ m.topic := fun x hx e1 e2 =>
              hns (List.mem_map.2 ⟨x, List.mem_filter.2 ⟨hx, decide_eq_true e2⟩, e1⟩)
            refine ⟨h.pos, ?_, ?_, ?_⟩
            · intro x hx
              rcases List.mem_append.1 hx with hx | hx
              · exact h.range x hx
              · rw [List.mem_singleton.1 hx]; exact h.range z hz
            · intro x hx y hy
              rcases List.mem_append.1 hx with hx | hx <;> rcases List.mem_append.1 hy with hy | hy
              · exact h.topic x hx y hy
              · rw [List.mem_singleton.1 hy, ← hzt]; exact h.topic x hx z hz
              · rw [List.mem_singleton.1 hx, ← hzt]; exact h.topic z hz y hy
              · rw [List.mem_singleton.1 hx, List.mem_singleton.1 hy]; simp
            · intro x hx y hy e1 e2
              rcases List.mem_append.1 hx with hx | hx <;> rcases List.mem_append.1 hy with hy | hy
              · exact h.once x hx y hy e1 e2
              · rw [List.mem_singleton.1 hy] at e1 e2; exact absurd e2 (hn x hx e1)
              · rw [List.mem_singleton.1 hx] at e1 e2; exact absurd e2.symm (hn y hy e1.symm)
              · rw [List.mem_singleton.1 hx, List.mem_singleton.1 hy]
      · exact h
    | unsubscribe m =>
      simp only [Table.step]
      split
      · exact pubOk_sub h fun x hx => (List.mem_filter.1 hx).1
      · exact h
    | _ => exact h

theorem pubOk_after (ops : List Op) : PubOk (tableAfter ops) := by
  have : ∀ (ops : List Op) (t : Table), PubOk t → PubOk (ops.foldl (fun t op => (t.step op).1) t) := by
    intro ops
    induction ops with
    | nil => intro t h; exact h
    | cons a ops ih => intro t h; exact ih _ (pubOk_step h a)
  exact this ops {} ⟨by decide, (by intro x hx; cases hx), (by intro x hx; cases hx), (by intro x hx; cases hx)⟩

/-- The subscription with another id -/
def ren (ρ : Int → Int) (x : Holding) : Holding := { x with id := ρ x.id }

/-- Two tables that differ in the past only -/
structure PubRel (ρ : Int → Int) (t t' : Table) : Prop where
  known : ∀ s, s ∈ t.known ↔ s ∈ t'.known
  held : ∀ p, t'.held.filter (·.topic = p) = (t.held.filter (·.topic = p)).map (ren ρ)
  next : ∀ i, t.next ≤ i → ρ i = i - t.next + t'.next

theorem PubRel.find {ρ t t'} (h : PubRel ρ t t') (p : String) :
    t'.held.find? (·.topic = p) = (t.held.find? (·.topic = p)).map (ren ρ) := by
  rw [← List.head?_filter, ← List.head?_filter, h.held, List.head?_map]

theorem PubRel.subs {ρ t t'} (h : PubRel ρ t t') (p : String) : subscribersOf t'.held p = subscribersOf t.held p := by
  rw [subscribersOf, subscribersOf, h.held, List.map_map]; rfl

theorem PubRel.mem {ρ t t'} (h : PubRel ρ t t') (x' : Holding) : x' ∈ t'.held ↔ ∃ x ∈ t.held, x' = ren ρ x := by
  have h1 : x' ∈ t'.held ↔ x' ∈ t'.held.filter (·.topic = x'.topic) := by simp
  rw [h1, h.held, List.mem_map]
  constructor
  · rintro ⟨x, hx, e⟩; exact ⟨x, (List.mem_filter.1 hx).1, e.symm⟩
  · rintro ⟨x, hx, rfl⟩; exact ⟨x, List.mem_filter.2 ⟨hx, decide_eq_true rfl⟩, rfl⟩

theorem PubRel.any {ρ t t'} (h : PubRel ρ t t') (p : String) : t'.held.any (·.topic = p) = t.held.any (·.topic = p) := by
  rw [Bool.eq_iff_iff, List.any_eq_true, List.any_eq_true]
  constructor
  · rintro ⟨x', hx, e⟩
    obtain ⟨x, hm, rfl⟩ := (h.mem x').1 hx
    exact ⟨x, hm, e⟩
  · rintro ⟨x, hx, e⟩; exact ⟨ren ρ x, (h.mem _).2 ⟨x, hx, rfl⟩, e⟩

/-- Dropping subscriptions on both sides -/
theorem PubRel.drop {ρ t t'} (h : PubRel ρ t t') (k k' : List Int) (hk : ∀ s, s ∈ k ↔ s ∈ k') (p q : Holding → Bool)
    (hpq : ∀ x ∈ t.held, q (ren ρ x) = p x) :
    PubRel ρ { t with known := k, held := t.held.filter p } { t' with known := k', held := t'.held.filter q } := by
  refine ⟨hk, fun u => ?_, h.next⟩
  have e1 : (t'.held.filter q).filter (·.topic = u) = (t'.held.filter (·.topic = u)).filter q := by
    rw [List.filter_filter, List.filter_filter]; congr 1; funext x; exact Bool.and_comm _ _
  have e2 : (t.held.filter p).filter (·.topic = u) = (t.held.filter (·.topic = u)).filter p := by
    rw [List.filter_filter, List.filter_filter]; congr 1; funext x; exact Bool.and_comm _ _
  simp only
  rw [e1, e2, h.held, List.filter_map]
  congr 1
  apply List.filter_congr
  intro x hx
  exact hpq x (List.mem_filter.1 hx).1

/-- One more subscription on both sides -/
theorem PubRel.add {ρ t t'} (h : PubRel ρ t t') (x : Holding) (n n' : Int) (hn : ∀ i, n ≤ i → ρ i = i - n + n') :
    PubRel ρ { t with held := t.held ++ [x], next := n } { t' with held := t'.held ++ [ren ρ x], next := n' } := by
  refine ⟨h.known, fun u => ?_, hn⟩
  simp only [List.filter_append, List.map_append, h.held]
  congr 1
  simp only [List.filter_cons, List.filter_nil, ren]
  split <;> rfl

theorem pubRel_step {ρ : Int → Int} (hρ : OneToOne ρ) {t t' : Table} (h : PubRel ρ t t') (op : Op) :
    (t'.step (pubIds ρ op)).2 = (t.step op).2.map (pubOutIds ρ) ∧ PubRel ρ (t.step op).1 (t'.step (pubIds ρ op)).1 := by
  have hnew : ρ t.next = t'.next := by rw [h.next _ (Int.le_refl _)]; omega
  have hnext : ∀ i, t.next + 1 ≤ i → ρ i = i - (t.next + 1) + (t'.next + 1) := fun i hi => by
    rw [h.next i (by omega)]; omega
  cases op with
  | addSession d =>
    simp only [pubIds, Table.step, ← h.known]
    split
    · exact ⟨rfl, h⟩
    · refine ⟨rfl, ?_, h.held, h.next⟩
      intro s; simp [h.known]
  | removeSession s =>
    simp only [pubIds, Table.step, ← h.known]
    split
    · refine ⟨rfl, h.drop _ _ ?_ _ _ fun x _ => rfl⟩
      intro s'; simp [h.known]
    · exact ⟨rfl, h⟩
  | hasSubscription p => simp only [pubIds, Table.step, h.any]; exact ⟨rfl, h⟩
  | receivePublish s m =>
    simp only [pubIds, Table.step, ← h.known]
    split
    · refine ⟨?_, h.known, h.held, hnext⟩
      simp only [h.find, h.subs, ← hnew]
      cases t.held.find? (fun x => decide (x.topic = m.topic)) <;> cases PyDict.flag m.options "acknowledge" <;> rfl
    · exact ⟨rfl, h⟩
  | receiveMessage s m =>
    cases m with
    | subscribe m =>
      simp only [pubIds, ids, Table.step, ← h.known]
      split
      · rw [h.find]
        cases hf : t.held.find? (fun x => decide (x.topic = m.topic)) with
        | none =>
          simp only [Option.map_none, Option.map_some, pubOutIds, sent, ids, ← hnew]
          refine ⟨rfl, ?_⟩
          have := h.add ⟨s, m.topic, t.next⟩ _ _ hnext
          simp only [ren, hnew] at this
          simp only [hnew]
          exact this
        | some x =>
          simp only [Option.map_some, h.subs]
          refine ⟨rfl, ?_⟩
          split
          · exact h
          · exact h.add ⟨s, m.topic, x.id⟩ _ _ h.next
      · exact ⟨rfl, h⟩
    | unsubscribe m =>
      have hex : (∃ x ∈ t'.held, x.session = s ∧ x.id = ρ m.subscriptionId.val) ↔
          ∃ x ∈ t.held, x.session = s ∧ x.id = m.subscriptionId.val := by
        constructor
        · rintro ⟨x', hx, e1, e2⟩
          obtain ⟨x, hm, rfl⟩ := (h.mem x').1 hx
          exact ⟨x, hm, e1, hρ _ _ e2⟩
        · rintro ⟨x, hx, e1, e2⟩
          exact ⟨ren ρ x, (h.mem _).2 ⟨x, hx, rfl⟩, e1, congrArg ρ e2⟩
      by_cases hx : ∃ x ∈ t.held, x.session = s ∧ x.id = m.subscriptionId.val
      · have e1 : t.step (.receiveMessage s (.unsubscribe m)) = (_, _) := if_pos hx
        have e2 : t'.step (pubIds ρ (.receiveMessage s (.unsubscribe m))) = (_, _) := if_pos (hex.2 hx)
        rw [e1, e2]
        refine ⟨rfl, h.drop _ _ h.known _ _ ?_⟩
        intro x _
        refine decide_eq_decide.2 ⟨fun hn e => hn ⟨e.1, congrArg ρ e.2⟩, fun hn e => hn ⟨e.1, hρ _ _ e.2⟩⟩
      · have e1 : t.step (.receiveMessage s (.unsubscribe m)) = (_, _) := if_neg hx
        have e2 : t'.step (pubIds ρ (.receiveMessage s (.unsubscribe m))) = (_, _) := if_neg (fun h => hx (hex.1 h))
        rw [e1, e2]
        exact ⟨rfl, h⟩
    | _ => exact ⟨rfl, h⟩

theorem pubRel_run {ρ : Int → Int} (hρ : OneToOne ρ) (later : List Op) : ∀ {t t' : Table}, PubRel ρ t t' →
    t'.answers (later.map (pubIds ρ)) = (t.answers later).map (·.map (pubOutIds ρ)) := by
  induction later with
  | nil => intro t t' _; rfl
  | cons op later ih =>
    intro t t' h
    obtain ⟨h1, h2⟩ := pubRel_step hρ h op
    simp only [List.map_cons, Table.answers, h1, ih h2]

theorem pair_up {f : Holding → Holding} : ∀ {l l' : List Holding}, l.map (·.session) = l'.map (·.session) →
    (∀ x ∈ l, ∀ x' ∈ l', x.session = x'.session → x' = f x) → l' = l.map f
  | [], [], _, _ => rfl
  | [], _ :: _, h, _ => by cases h
  | _ :: _, [], h, _ => by cases h
  | x :: l, x' :: l', h, hf => by
    simp only [List.map_cons, List.cons.injEq] at h
    rw [List.map_cons, hf x (by simp) x' (by simp) h.1,
      pair_up h.2 fun y hy y' hy' => hf y (by simp [hy]) y' (by simp [hy'])]

/-- Two tables with the same present are related. -/
theorem pubRel_of_same {t t' : Table} (h : PubOk t) (h' : PubOk t') (hk : ∀ s, s ∈ t.known ↔ s ∈ t'.known)
    (hs : ∀ p, subscribersOf t.held p = subscribersOf t'.held p) :
    ∃ ρ, OneToOne ρ ∧ PubRel ρ t t' ∧ ∀ x ∈ t.held, ∀ x' ∈ t'.held, x.topic = x'.topic → ρ x.id = x'.id := by
  let f : Int → Option Int := fun n =>
    (t.held.find? (·.id = n)).bind fun x => (t'.held.find? (·.topic = x.topic)).map (·.id)
  have hf : ∀ n j, f n = some j ↔ ∃ x ∈ t.held, x.id = n ∧ ∃ x' ∈ t'.held, x'.topic = x.topic ∧ x'.id = j := by
    intro n j
    constructor
    · intro e
      obtain ⟨x, hx, e⟩ := Option.bind_eq_some_iff.1 e
      obtain ⟨x', hx', e⟩ := Option.map_eq_some_iff.1 e
      exact ⟨x, List.mem_of_find?_eq_some hx, by simpa using List.find?_some hx, x', List.mem_of_find?_eq_some hx',
        by simpa using List.find?_some hx', e⟩
    · rintro ⟨x, hx, rfl, x', hx', e, rfl⟩
      cases hy : t.held.find? (·.id = x.id) with
      | none => have := List.find?_eq_none.1 hy x hx; simp at this
      | some y =>
        have hyt := (h.topic y (List.mem_of_find?_eq_some hy) x hx).1 (by simpa using List.find?_some hy)
        cases hy' : t'.held.find? (·.topic = y.topic) with
        | none => have := List.find?_eq_none.1 hy' x' hx'; simp [e, hyt] at this
        | some y' =>
          have hyt' : y'.topic = y.topic := by simpa using List.find?_some hy'
          have := (h'.topic y' (List.mem_of_find?_eq_some hy') x' hx').2 (by rw [hyt', hyt, e])
          simp [f, hy, hy', this]
  have hone : OneToOne (joined t.next t'.next f) := by
    refine joined_one h'.pos ?_ ?_
    · intro i j e
      obtain ⟨x, hx, -, x', hx', -, rfl⟩ := (hf i j).1 e
      exact h'.range x' hx'
    · intro i i' j e e'
      obtain ⟨x, hx, rfl, x', hx', e1, rfl⟩ := (hf _ _).1 e
      obtain ⟨y, hy, rfl, y', hy', e2, e3⟩ := (hf _ _).1 e'
      have := (h'.topic y' hy' x' hx').1 e3
      exact (h.topic x hx y hy).2 (by rw [← e1, ← e2, this])
  have hids : ∀ x ∈ t.held, ∀ x' ∈ t'.held, x.topic = x'.topic → joined t.next t'.next f x.id = x'.id := by
    intro x hx x' hx' e
    exact joined_old (h.range x hx).2 ((hf _ _).2 ⟨x, hx, rfl, x', hx', e.symm, rfl⟩)
  refine ⟨_, hone, ⟨hk, ?_, fun i hi => joined_new f hi⟩, hids⟩
  intro p
  apply pair_up (hs p)
  intro x hx x' hx' e
  replace hx := List.mem_filter.1 hx
  replace hx' := List.mem_filter.1 hx'
  have e1 := of_decide_eq_true hx.2
  have e2 := of_decide_eq_true hx'.2
  replace hx := hx.1
  replace hx' := hx'.1
  have := hids x hx x' hx' (e1.trans e2.symm)
  obtain ⟨a, b, c⟩ := x
  obtain ⟨a', b', c'⟩ := x'
  simp only at e e1 e2 this
  simp only [ren, this, e, e1, e2]

theorem pub_answers_length (l : List Op) : ∀ t : Table, (t.answers l).length = l.length := by
  induction l with
  | nil => intro t; rfl
  | cons a l ih => intro t; simp [Table.answers, ih]

/-- What is observed after a history, in terms of the table. -/
theorem pub_from (ops later : List Op) (h : (ops ++ later).length ≤ 2 ^ 53) :
    ((Broker.trace (ops ++ later)).drop ops.length).map (·.2.toOption) = (tableAfter ops).answers later := by
  have h79 := (Broker.C79_broker_is_table (ops ++ later) h).2.1
  rw [pub_answers_append] at h79
  have h2 := congrArg (List.drop ops.length) h79
  rw [List.drop_left' (pub_answers_length _ _), ← List.map_drop] at h2
  exact h2

/-- From now on a broker does what any other does that has the same sessions connected and the same subscribers, whatever happened
before. -/
theorem C128_broker (ops ops' : List Op) (hl : ops.length ≤ 2 ^ 53) (hl' : ops'.length ≤ 2 ^ 53)
    (h : PubSame (Pub.view (Broker.trace ops)) (Pub.view (Broker.trace ops'))) : Brokers ops ops' := by
  have ht := Broker.tableAfter_eq ops hl
  have ht' := Broker.tableAfter_eq ops' hl'
  obtain ⟨ρ, h1, h2, h3⟩ := pubRel_of_same (pubOk_after ops) (pubOk_after ops')
    (by rw [ht, ht']; exact h.known) (by rw [ht, ht']; exact h.subscribers)
  refine ⟨ρ, h1, ?_, ?_⟩
  · rw [ht, ht'] at h3; exact h3
  · intro later hb hb'
    rw [pub_from ops' _ (by rw [List.length_append, List.length_map]; rw [List.length_append] at hb'; exact hb'), pubRel_run h1 later h2,
      ← pub_from ops later hb, List.map_map]
    rfl

theorem exists_above : ∀ l : List Int, ∃ z, ∀ x ∈ l, x < z
  | [] => ⟨0, by intro x hx; cases hx⟩
  | a :: l => by
    obtain ⟨z, hz⟩ := exists_above l
    refine ⟨if z ≤ a then a + 1 else z, fun x hx => ?_⟩
    rcases List.mem_cons.1 hx with rfl | hx
    · split <;> omega
    · have := hz x hx; split <;> omega

/-- What a newcomer learns by publishing. -/
theorem answers_newcomer (t : Table) (z : Int) (hz : z ∉ t.known) (topic : String) :
    t.answers [.addSession { sessionId := .int z, realm := "" }, .receivePublish z { requestId := .int 1, topic := topic }] =
      [some .unit, some (.publication {
        recipients := subscribersOf t.held topic
        event := (t.held.find? (·.topic = topic)).map fun x => { subscriptionId := .int x.id, publicationId := .int t.next }
        ack := none })] := by
  simp only [Table.answers, Table.step]
  rw [if_neg (by exact hz)]
  simp only
  rw [if_pos (List.mem_append_right _ (by exact List.mem_singleton.2 rfl))]
  rfl

/-- Exactly then: a broker with other sessions connected or other subscribers is told apart by two calls. -/
theorem C128_broker_exact (ops ops' : List Op) (hl : ops.length + 2 ≤ 2 ^ 53) (hl' : ops'.length + 2 ≤ 2 ^ 53) :
    Brokers ops ops' ↔ PubSame (Pub.view (Broker.trace ops)) (Pub.view (Broker.trace ops')) := by
  refine ⟨?_, C128_broker ops ops' (by omega) (by omega)⟩
  rintro ⟨ρ, -, -, h⟩
  have ht := Broker.tableAfter_eq ops (by omega)
  have ht' := Broker.tableAfter_eq ops' (by omega)
  have key : ∀ later : List Op, later.length ≤ 2 →
      (tableAfter ops').answers (later.map (pubIds ρ)) = ((tableAfter ops).answers later).map (·.map (pubOutIds ρ)) := by
    intro later h2
    have := h later (by rw [List.length_append]; omega) (by rw [List.length_append]; omega)
    rw [pub_from ops' _ (by rw [List.length_append, List.length_map]; omega)] at this
    rw [this, ← pub_from ops later (by rw [List.length_append]; omega), List.map_map]; rfl
  have hk : ∀ s, s ∈ (tableAfter ops).known ↔ s ∈ (tableAfter ops').known := by
    intro s
    have := key [.addSession { sessionId := .int s, realm := "" }] (by simp)
    simp only [List.map_cons, List.map_nil, pubIds, Table.answers, Table.step] at this
    change [(if s ∈ (tableAfter ops').known then _ else _ : Table × Option Out).2] =
      [Option.map _ (if s ∈ (tableAfter ops).known then _ else _ : Table × Option Out).2] at this
    by_cases h1 : s ∈ (tableAfter ops).known <;> by_cases h2 : s ∈ (tableAfter ops').known <;>
      simp [h1, h2] at this ⊢
  refine ⟨by rw [ht, ht'] at hk; exact hk, fun topic => ?_⟩
  obtain ⟨z, hz⟩ := exists_above ((tableAfter ops).known)
  have hz1 : z ∉ (tableAfter ops).known := fun hm => by have := hz z hm; omega
  have hz2 : z ∉ (tableAfter ops').known := fun hm => hz1 ((hk z).2 hm)
  have := key [.addSession { sessionId := .int z, realm := "" }, .receivePublish z { requestId := .int 1, topic := topic }] (by simp)
  simp only [List.map_cons, List.map_nil, pubIds] at this
  rw [answers_newcomer _ _ hz1, answers_newcomer _ _ hz2] at this
  simp only [List.map_cons, List.map_nil, Option.map_some, pubOutIds, List.cons.injEq, Option.some.injEq,
    Out.publication.injEq, Publication.mk.injEq, and_true, true_and] at this
  have h2 := this.2.1.symm
  rw [ht, ht'] at h2
  exact h2

/-! What leaves no trace -/

theorem pub_table_snoc (ops : List Op) (op : Op) : tableAfter (ops ++ [op]) = ((tableAfter ops).step op).1 := by simp [tableAfter]

theorem pubSame_of_table {ops ops' : List Op} (hl : ops.length ≤ 2 ^ 53) (hl' : ops'.length ≤ 2 ^ 53)
    (hk : ∀ s, s ∈ (tableAfter ops).known ↔ s ∈ (tableAfter ops').known)
    (hs : ∀ topic, subscribersOf (tableAfter ops).held topic = subscribersOf (tableAfter ops').held topic) :
    PubSame (Pub.view (Broker.trace ops)) (Pub.view (Broker.trace ops')) := by
  rw [Broker.tableAfter_eq ops hl, Broker.tableAfter_eq ops' hl'] at hk hs
  exact ⟨hk, hs⟩

/-- A PUBLISH leaves no trace with the broker. -/
theorem C128_publish (ops : List Op) (hl : ops.length < 2 ^ 53) (s : Int) (m : Publish) :
    Brokers ops (ops ++ [.receivePublish s m]) := by
  have hl' : (ops ++ [Op.receivePublish s m]).length ≤ 2 ^ 53 := by rw [List.length_append]; exact hl
  refine C128_broker _ _ (by omega) hl' (pubSame_of_table (by omega) hl' ?_ ?_) <;> intro x <;>
    rw [pub_table_snoc] <;> simp only [Table.step] <;> split <;> simp

/-- A question whether a topic has subscribers leaves none, and neither does a call that fails. -/
theorem C128_refused (ops : List Op) (hl : ops.length < 2 ^ 53) (op : Op)
    (h : (∃ topic, op = .hasSubscription topic) ∨ (Broker.outcome ops op).toOption = none) : Brokers ops (ops ++ [op]) := by
  have hl' : (ops ++ [op]).length ≤ 2 ^ 53 := by rw [List.length_append]; exact hl
  have hstep : ((tableAfter ops).step op).1 = tableAfter ops := by
    rcases h with ⟨topic, rfl⟩ | h
    · rfl
    · have hn : ((tableAfter ops).step op).2 = none := by
        rw [Broker.tableAfter_eq ops (by omega), ← (Broker.table_step ops hl op).1]; exact h
      revert hn
      cases op with
      | receiveMessage s m =>
        cases m with
        | subscribe m =>
          simp only [Table.step]
          split
          · split <;> simp
          · simp
        | unsubscribe m => simp only [Table.step]; split <;> simp
        | _ => simp [Table.step]
      | addSession d => simp only [Table.step]; split <;> simp
      | removeSession s => simp only [Table.step]; split <;> simp
      | receivePublish s m => simp only [Table.step]; split <;> simp
      | hasSubscription topic => intro _; rfl
  refine C128_broker _ _ (by omega) hl' (pubSame_of_table (by omega) hl' ?_ ?_) <;> intro x <;>
    rw [pub_table_snoc, hstep]

end

/-! ## The dealer -/

section
open Wamp.Spec.Rpc (Table Reg Pending Mark Failure Current)
open Wamp.Dealer (Op Out tableAfter graded)

/-- Invocation ids that a call in progress or a request id of a caller has -/
def used (t : Table) (i : Int) : Prop := (∃ x ∈ t.pending, x.inv = i) ∨ ∃ k ∈ t.marks, k.inv = i

/-- Ids in use have been given out, once. -/
structure RpcOk (t : Table) : Prop where
  pos : 1 ≤ t.next
  heldRange : ∀ x ∈ t.held, 1 ≤ x.id ∧ x.id < t.next
  usedRange : ∀ i, used t i → 1 ≤ i ∧ i < t.next
  apart : ∀ x ∈ t.held, ¬ used t x.id
  procedure : ∀ x ∈ t.held, ∀ y ∈ t.held, x.procedure = y.procedure → x = y
  id : ∀ x ∈ t.held, ∀ y ∈ t.held, x.id = y.id → x = y
  inv : ∀ x ∈ t.pending, ∀ y ∈ t.pending, x.inv = y.inv → x = y

theorem rpcOk_sub {t : Table} (h : RpcOk t) {k : List Int} {l : List Reg} {pe : List Pending} {ma : List Mark}
    (hl : ∀ x ∈ l, x ∈ t.held) (hp : ∀ x ∈ pe, x ∈ t.pending) (hm : ∀ x ∈ ma, x ∈ t.marks) :
    RpcOk { t with known := k, held := l, pending := pe, marks := ma } := by
  have hu : ∀ i, used { t with known := k, held := l, pending := pe, marks := ma } i → used t i := by
    rintro i (⟨x, hx, e⟩ | ⟨x, hx, e⟩)
    · exact .inl ⟨x, hp x hx, e⟩
    · exact .inr ⟨x, hm x hx, e⟩
  exact ⟨h.pos, fun x hx => h.heldRange x (hl x hx), fun i hi => h.usedRange i (hu i hi), fun x hx hi => h.apart x (hl x hx) (hu _ hi),
    fun x hx y hy => h.procedure x (hl x hx) y (hl y hy), fun x hx y hy => h.id x (hl x hx) y (hl y hy),
    fun x hx y hy => h.inv x (hp x hx) y (hp y hy)⟩

theorem rpcOk_step {t : Table} (h : RpcOk t) (op : Op) : RpcOk (t.step op).1 := by
  have hsame : ∀ {α} (l : List α), ∀ x ∈ l, x ∈ l := fun _ _ hx => hx
  have hfil : ∀ {α} (l : List α) (p : α → Bool), ∀ x ∈ l.filter p, x ∈ l := fun _ _ _ hx => (List.mem_filter.1 hx).1
  cases op with
  | addSession d =>
    simp only [Table.step]
    split
    · exact h
    · exact rpcOk_sub h (hsame _) (hsame _) (hsame _)
  | removeSession s =>
    simp only [Table.step]
    split
    · exact rpcOk_sub h (hfil _ _) (hsame _) (hsame _)
    · exact h
  | hasRegistration x => exact h
  | receiveMessage s m =>
    cases m with
    | register m =>
      simp only [Table.step]
      split
      · split
        · exact h
        · rename_i hf
          have hn : ∀ x ∈ t.held, x.procedure ≠ m.procedure := fun x hx e =>
            hf (List.any_eq_true.2 ⟨x, hx, decide_eq_true e⟩)
          have hu : ∀ i, used { t with held := t.held ++ [⟨s, m.procedure, t.next⟩], next := t.next + 1 } i → used t i := fun i hi => hi
          refine ⟨by have := h.pos; simp only; omega, ?_, fun i hi => by have := h.usedRange i (hu i hi); simp only; omega, ?_, ?_, ?_, h.inv⟩
          · intro x hx
            rcases List.mem_append.1 hx with hx | hx
            · have := h.heldRange x hx; simp only; omega
            · rw [List.mem_singleton.1 hx]; have := h.pos; simp only; omega
          · intro x hx hi
            rcases List.mem_append.1 hx with hx | hx
            · exact h.apart x hx (hu _ hi)
            · rw [List.mem_singleton.1 hx] at hi
              have := h.usedRange _ (hu _ hi)
              simp only at this; omega
          · intro x hx y hy e
            rcases List.mem_append.1 hx with hx | hx <;> rcases List.mem_append.1 hy with hy | hy
            · exact h.procedure x hx y hy e
            · rw [List.mem_singleton.1 hy] at e; exact absurd e (hn x hx)
            · rw [List.mem_singleton.1 hx] at e; exact absurd e.symm (hn y hy)
            · rw [List.mem_singleton.1 hx, List.mem_singleton.1 hy]
          · intro x hx y hy e
            rcases List.mem_append.1 hx with hx | hx <;> rcases List.mem_append.1 hy with hy | hy
            · exact h.id x hx y hy e
            · rw [List.mem_singleton.1 hy] at e; have := h.heldRange x hx; simp only at e; omega
            · rw [List.mem_singleton.1 hx] at e; have := h.heldRange y hy; simp only at e; omega
            · rw [List.mem_singleton.1 hx, List.mem_singleton.1 hy]
      · exact h
    | unregister m =>
      simp only [Table.step]
      split
      · exact rpcOk_sub h (hfil _ _) (hsame _) (hsame _)
      · exact h
    | call m =>
      simp only [Table.step]
      split
      · exact h
      · rename_i x hx
        split
        · exact h
        · have hu : ∀ {pe : Pending} {ma : Mark}, pe.inv = t.next → ma.inv = t.next → ∀ i,
              used { t with pending := t.pending ++ [pe], marks := t.unmark s m.requestId.val ++ [ma], next := t.next + 1 } i →
              used t i ∨ i = t.next := by
            rintro pe ma e1 e2 i (⟨y, hy, e⟩ | ⟨y, hy, e⟩)
            · rcases List.mem_append.1 hy with hy | hy
              · exact .inl (.inl ⟨y, hy, e⟩)
              · rw [List.mem_singleton.1 hy] at e; exact .inr (e.symm.trans e1)
            · rcases List.mem_append.1 hy with hy | hy
              · exact .inl (.inr ⟨y, (List.mem_filter.1 hy).1, e⟩)
              · rw [List.mem_singleton.1 hy] at e; exact .inr (e.symm.trans e2)
          refine ⟨by have := h.pos; simp only; omega, fun x hx => by have := h.heldRange x hx; simp only; omega, ?_, ?_,
            h.procedure, h.id, ?_⟩
          · intro i hi
            rcases hu (by rfl) (by rfl) i hi with hi | hi
            · have := h.usedRange i hi; simp only; omega
            · have := h.pos; simp only; omega
          · intro x hx hi
            rcases hu (by rfl) (by rfl) _ hi with hi | hi
            · exact h.apart x hx hi
            · have := h.heldRange x hx; omega
          · intro x hx y hy e
            rcases List.mem_append.1 hx with hx | hx <;> rcases List.mem_append.1 hy with hy | hy
            · exact h.inv x hx y hy e
            · rw [List.mem_singleton.1 hy] at e; have := h.usedRange _ (.inl ⟨x, hx, rfl⟩); simp only at e; omega
            · rw [List.mem_singleton.1 hx] at e; have := h.usedRange _ (.inl ⟨y, hy, rfl⟩); simp only at e; omega
            · rw [List.mem_singleton.1 hx, List.mem_singleton.1 hy]
    | yield_ m =>
      simp only [Table.step]
      split
      · exact h
      · split
        · exact h
        · split
          · exact h
          · split
            · exact rpcOk_sub h (hsame _) (hfil _ _) (hsame _)
            · exact rpcOk_sub h (hsame _) (hfil _ _) (hfil _ _)
    | error m =>
      simp only [Table.step]
      split
      · exact h
      · exact rpcOk_sub h (hsame _) (hfil _ _) (hsame _)
    | _ => exact h

theorem rpcOk_after (ops : List Op) : RpcOk (tableAfter ops) := by
  have : ∀ (ops : List Op) (t : Table), RpcOk t → RpcOk (ops.foldl (fun t op => (t.step op).1) t) := by
    intro ops
    induction ops with
    | nil => intro t h; exact h
    | cons a ops ih => intro t h; exact ih _ (rpcOk_step h a)
  refine this ops {} ⟨by decide, (by intro x hx; cases hx), ?_, (by intro x hx; cases hx), (by intro x hx; cases hx),
    (by intro x hx; cases hx), (by intro x hx; cases hx)⟩
  rintro i (⟨x, hx, -⟩ | ⟨x, hx, -⟩) <;> cases hx

/-! Lists with the same members up to renaming -/

theorem find_ren {α : Type} {g : α → α} {l l' : List α} (hm : ∀ x', x' ∈ l' ↔ ∃ x ∈ l, x' = g x) {p q : α → Bool}
    (hpq : ∀ x, q (g x) = p x) (hu : ∀ x ∈ l', ∀ y ∈ l', q x = true → q y = true → x = y) :
    l'.find? q = (l.find? p).map g := by
  cases hf : l.find? p with
  | none =>
    rw [Option.map_none, List.find?_eq_none]
    intro x' hx' e
    obtain ⟨x, hx, rfl⟩ := (hm x').1 hx'
    rw [hpq] at e
    exact List.find?_eq_none.1 hf x hx e
  | some x =>
    have h1 := (hm (g x)).2 ⟨x, List.mem_of_find?_eq_some hf, rfl⟩
    have h2 : q (g x) = true := by rw [hpq]; exact List.find?_some hf
    cases hf' : l'.find? q with
    | none => exact absurd h2 (List.find?_eq_none.1 hf' _ h1)
    | some y =>
      rw [hu y (List.mem_of_find?_eq_some hf') _ h1 (List.find?_some hf') h2]; rfl

theorem add_ren {α : Type} {g : α → α} {l l' : List α} (hm : ∀ x', x' ∈ l' ↔ ∃ x ∈ l, x' = g x) {n n' : α} (hn : n' = g n) :
    ∀ x', x' ∈ l' ++ [n'] ↔ ∃ x ∈ l ++ [n], x' = g x := by
  intro x'
  simp only [List.mem_append, List.mem_singleton, hm]
  constructor
  · rintro (⟨x, hx, e⟩ | rfl)
    · exact ⟨x, .inl hx, e⟩
    · exact ⟨n, .inr rfl, hn⟩
  · rintro ⟨x, hx | rfl, e⟩
    · exact .inl ⟨x, hx, e⟩
    · exact .inr (e.trans hn.symm)

theorem drop_ren {α : Type} {g : α → α} {l l' : List α} (hm : ∀ x', x' ∈ l' ↔ ∃ x ∈ l, x' = g x) {p q : α → Bool}
    (hpq : ∀ x, q (g x) = p x) : ∀ x', x' ∈ l'.filter q ↔ ∃ x ∈ l.filter p, x' = g x := by
  intro x'
  simp only [List.mem_filter, hm]
  constructor
  · rintro ⟨⟨x, hx, rfl⟩, e⟩; rw [hpq] at e; exact ⟨x, ⟨hx, e⟩, rfl⟩
  · rintro ⟨x, ⟨hx, e⟩, rfl⟩; rw [← hpq] at e; exact ⟨⟨x, hx, rfl⟩, e⟩

/-- The registration with another id -/
def renReg (ρ : Int → Int) (x : Reg) : Reg := { x with id := ρ x.id }
/-- The call with another id -/
def renCall (ρ : Int → Int) (x : Pending) : Pending := { x with inv := ρ x.inv }

/-- Two tables that differ in the past only -/
structure RpcRel (ρ : Int → Int) (t t' : Table) : Prop where
  known : ∀ s, s ∈ t.known ↔ s ∈ t'.known
  held : ∀ x', x' ∈ t'.held ↔ ∃ x ∈ t.held, x' = renReg ρ x
  pending : ∀ x', x' ∈ t'.pending ↔ ∃ x ∈ t.pending, x' = renCall ρ x
  marks : ∀ c q, (t'.mark c q).map (·.inv) = (t.mark c q).map fun k => ρ k.inv
  next : ∀ i, t.next ≤ i → ρ i = i - t.next + t'.next

theorem RpcRel.findProc {ρ t t'} (h : RpcRel ρ t t') (ok : RpcOk t') (p : String) :
    t'.held.find? (·.procedure = p) = (t.held.find? (·.procedure = p)).map (renReg ρ) :=
  find_ren h.held (fun _ => rfl) fun x hx y hy e1 e2 =>
    ok.procedure x hx y hy ((of_decide_eq_true e1).trans (of_decide_eq_true e2).symm)

theorem RpcRel.findCall {ρ t t'} (h : RpcRel ρ t t') (hρ : OneToOne ρ) (ok : RpcOk t') (i : Int) :
    t'.pending.find? (·.inv = ρ i) = (t.pending.find? (·.inv = i)).map (renCall ρ) :=
  find_ren h.pending (fun _ => decide_eq_decide.2 ⟨fun e => hρ _ _ e, fun e => congrArg ρ e⟩) fun x hx y hy e1 e2 =>
    ok.inv x hx y hy ((of_decide_eq_true e1).trans (of_decide_eq_true e2).symm)

theorem RpcRel.any {ρ t t'} (h : RpcRel ρ t t') (p : String) : t'.held.any (·.procedure = p) = t.held.any (·.procedure = p) := by
  rw [Bool.eq_iff_iff, List.any_eq_true, List.any_eq_true]
  constructor
  · rintro ⟨x', hx, e⟩
    obtain ⟨x, hm, rfl⟩ := (h.held x').1 hx
    exact ⟨x, hm, e⟩
  · rintro ⟨x, hx, e⟩; exact ⟨renReg ρ x, (h.held _).2 ⟨x, hx, rfl⟩, e⟩

theorem RpcRel.unmark {ρ t t'} (h : RpcRel ρ t t') (c q : Int) (c' q' : Int) :
    (({ t' with marks := t'.unmark c q } : Table).mark c' q').map (·.inv) =
      (({ t with marks := t.unmark c q } : Table).mark c' q').map fun k => ρ k.inv := by
  have e := h.marks c' q'
  simp only [Table.mark, Table.unmark, Dealer.find_unmark]
  split
  · rfl
  · exact e

theorem rpcRel_step {ρ : Int → Int} (hρ : OneToOne ρ) {t t' : Table} (ok' : RpcOk t') (h : RpcRel ρ t t') (op : Op) :
    (t'.step (rpcIds ρ op)).2 = (t.step op).2.map (rpcOutIds ρ) ∧ RpcRel ρ (t.step op).1 (t'.step (rpcIds ρ op)).1 := by
  have hnew : ρ t.next = t'.next := by rw [h.next _ (Int.le_refl _)]; omega
  have hnext : ∀ i, t.next + 1 ≤ i → ρ i = i - (t.next + 1) + (t'.next + 1) := fun i hi => by
    rw [h.next i (by omega)]; omega
  have hdrop : ∀ i x, decide ((renCall ρ x).inv ≠ ρ i) = decide (x.inv ≠ i) := fun i x =>
    decide_eq_decide.2 ⟨fun hn e => hn (congrArg ρ e), fun hn e => hn (hρ _ _ e)⟩
  cases op with
  | addSession d =>
    simp only [rpcIds, Table.step, ← h.known]
    split
    · exact ⟨rfl, h⟩
    · refine ⟨rfl, ?_, h.held, h.pending, h.marks, h.next⟩
      intro s; simp [h.known]
  | removeSession s =>
    simp only [rpcIds, Table.step, ← h.known]
    split
    · refine ⟨rfl, ?_, drop_ren h.held fun _ => rfl, h.pending, h.marks, h.next⟩
      intro s'; simp [h.known]
    · exact ⟨rfl, h⟩
  | hasRegistration p => simp only [rpcIds, Table.step, h.any]; exact ⟨rfl, h⟩
  | receiveMessage s m =>
    cases m with
    | register m =>
      simp only [rpcIds, ids, Table.step, ← h.known, h.any]
      split
      · split
        · refine ⟨?_, h⟩
          simp only [Except.map, rpcOutIds, sent, ids]; rfl
        · simp only [Except.map, rpcOutIds, sent, ids, ← hnew]
          refine ⟨rfl, h.known, add_ren h.held rfl, h.pending, h.marks, ?_⟩
          simp only [hnew]; exact hnext
      · exact ⟨rfl, h⟩
    | unregister m =>
      have hex : (∃ x ∈ t'.held, x.session = s ∧ x.id = ρ m.registrationId.val) ↔
          ∃ x ∈ t.held, x.session = s ∧ x.id = m.registrationId.val := by
        constructor
        · rintro ⟨x', hx, e1, e2⟩
          obtain ⟨x, hm, rfl⟩ := (h.held x').1 hx
          exact ⟨x, hm, e1, hρ _ _ e2⟩
        · rintro ⟨x, hx, e1, e2⟩
          exact ⟨renReg ρ x, (h.held _).2 ⟨x, hx, rfl⟩, e1, congrArg ρ e2⟩
      by_cases hx : ∃ x ∈ t.held, x.session = s ∧ x.id = m.registrationId.val
      · have e1 : t.step (.receiveMessage s (.unregister m)) = (_, _) := if_pos hx
        have e2 : t'.step (rpcIds ρ (.receiveMessage s (.unregister m))) = (_, _) := if_pos (hex.2 hx)
        rw [e1, e2]
        refine ⟨rfl, h.known, drop_ren h.held ?_, h.pending, h.marks, h.next⟩
        intro x
        exact decide_eq_decide.2 ⟨fun hn e => hn ⟨e.1, congrArg ρ e.2⟩, fun hn e => hn ⟨e.1, hρ _ _ e.2⟩⟩
      · have e1 : t.step (.receiveMessage s (.unregister m)) = (_, _) := if_neg hx
        have e2 : t'.step (rpcIds ρ (.receiveMessage s (.unregister m))) = (_, _) := if_neg (fun h => hx (hex.1 h))
        rw [e1, e2]
        exact ⟨rfl, h⟩
    | call m =>
      simp only [rpcIds, ids, Table.step, h.findProc ok']
      cases hf : t.held.find? (fun x => decide (x.procedure = m.procedure)) with
      | none =>
        refine ⟨?_, h⟩
        simp only [Option.map_none, Except.map, rpcOutIds, sent, ids]; rfl
      | some x =>
        simp only [Option.map_some]
        have hk := h.marks s m.requestId.val
        have hc : ((if PyDict.flag m.options "progress" then t'.mark s m.requestId.val else none).map (·.inv)) =
            (if PyDict.flag m.options "progress" then t.mark s m.requestId.val else none).map fun k => ρ k.inv := by
          split
          · exact hk
          · rfl
        cases hm : (if PyDict.flag m.options "progress" then t.mark s m.requestId.val else none) with
        | some k =>
          rw [hm] at hc
          obtain ⟨k', hk', e⟩ := Option.map_eq_some_iff.1 hc
          rw [hk']
          simp only [e]
          exact ⟨rfl, h⟩
        | none =>
          rw [hm] at hc
          rw [Option.map_eq_none_iff.1 hc]
          simp only
          refine ⟨?_, h.known, h.held, add_ren h.pending ?_, ?_, hnext⟩
          · rw [← hnew]; rfl
          · simp only [renCall, renReg, hnew]
          · intro c q
            have := h.unmark s m.requestId.val c q
            simp only [Table.mark, List.find?_append] at this ⊢
            cases he : (t.unmark s m.requestId.val).find? (fun x => decide (x.caller = c ∧ x.request = q)) with
            | some k =>
              rw [he] at this
              obtain ⟨k', hk', e⟩ := Option.map_eq_some_iff.1 this
              rw [hk']; simp [e]
            | none =>
              rw [he] at this
              rw [Option.map_eq_none_iff.1 this]
              simp only [Option.none_or, List.find?_cons, List.find?_nil]
              cases decide (s = c ∧ m.requestId.val = q)
              · rfl
              · simp only [Option.map_some, hnew]
    | yield_ m =>
      simp only [rpcIds, ids, Table.step]
      have hfc := h.findCall hρ ok' m.requestId.val
      rw [show (PyInt.int (ρ m.requestId.val)).val = ρ m.requestId.val from rfl, hfc]
      cases hf : t.pending.find? (fun x => decide (x.inv = m.requestId.val)) with
      | none => exact ⟨rfl, h⟩
      | some x =>
        have ho : ({ m with requestId := .int (ρ m.requestId.val) } : Yield).options = m.options := rfl
        simp only [Option.map_some, renCall, ho]
        split
        · exact ⟨rfl, h⟩
        · split
          · exact ⟨rfl, h⟩
          · have hk := h.marks x.caller x.request.val
            cases hm : t.mark x.caller x.request.val with
            | none =>
              rw [hm] at hk
              rw [Option.map_eq_none_iff.1 hk]
              exact ⟨rfl, h.known, h.held, drop_ren h.pending (hdrop _), h.marks, h.next⟩
            | some k =>
              rw [hm] at hk
              obtain ⟨k', hk', -⟩ := Option.map_eq_some_iff.1 hk
              rw [hk']
              exact ⟨rfl, h.known, h.held, drop_ren h.pending (hdrop _), h.unmark _ _, h.next⟩
    | error m =>
      by_cases h68 : m.messageType.val = 68
      · have e1 : rpcIds ρ (.receiveMessage s (.error m)) = .receiveMessage s (.error { m with requestId := .int (ρ m.requestId.val) }) := by
          simp only [rpcIds, ids, if_pos h68]
        rw [e1]
        simp only [Table.step, if_pos h68]
        have hfc := h.findCall hρ ok' m.requestId.val
        rw [show (PyInt.int (ρ m.requestId.val)).val = ρ m.requestId.val from rfl, hfc]
        cases hf : t.pending.find? (fun x => decide (x.inv = m.requestId.val)) with
        | none => exact ⟨rfl, h⟩
        | some x =>
          refine ⟨?_, h.known, h.held, drop_ren h.pending (hdrop _), h.marks, h.next⟩
          simp only [Option.map_some, Except.map, rpcOutIds, sent, ids]; rfl
      · have e1 : rpcIds ρ (.receiveMessage s (.error m)) = .receiveMessage s (.error m) := by
          simp only [rpcIds, ids, if_neg h68]
        rw [e1]
        simp only [Table.step, if_neg h68]
        exact ⟨rfl, h⟩
    | _ => exact ⟨rfl, h⟩

theorem rpcRel_run {ρ : Int → Int} (hρ : OneToOne ρ) (later : List Op) : ∀ {t t' : Table}, RpcOk t' → RpcRel ρ t t' →
    t'.answers (later.map (rpcIds ρ)) = (t.answers later).map (·.map (rpcOutIds ρ)) := by
  induction later with
  | nil => intro t t' _ _; rfl
  | cons op later ih =>
    intro t t' ok h
    obtain ⟨h1, h2⟩ := rpcRel_step hρ ok h op
    simp only [List.map_cons, Table.answers, h1, ih (rpcOk_step ok _) h2]

/-- Two tables with the same present are related. -/
theorem rpcRel_of_same {τ : Int → Int} (hτ : OneToOne τ) {t t' : Table} (h : RpcOk t) (h' : RpcOk t') (hk : ∀ s, s ∈ t.known ↔ s ∈ t'.known)
    (hs : ∀ s p, (∃ i, (⟨s, p, i⟩ : Reg) ∈ t.held) ↔ ∃ i, (⟨s, p, i⟩ : Reg) ∈ t'.held)
    (hp : ∀ x', x' ∈ t'.pending ↔ ∃ x ∈ t.pending, x' = renCall τ x)
    (hm : ∀ c q i', (t'.mark c q).map (·.inv) = some i' ↔ ∃ i, (t.mark c q).map (·.inv) = some i ∧ i' = τ i) :
    ∃ ρ, OneToOne ρ ∧ RpcRel ρ t t' ∧ (∀ x ∈ t.held, ∀ x' ∈ t'.held, x.procedure = x'.procedure → ρ x.id = x'.id) ∧
      (∀ x ∈ t.pending, ρ x.inv = τ x.inv) ∧ ∀ c q i, (t.mark c q).map (·.inv) = some i → ρ i = τ i := by
  let live : Int → Prop := fun i => (∃ x ∈ t.pending, x.inv = i) ∨ ∃ c q, (t.mark c q).map (·.inv) = some i
  have hlive : ∀ i, live i → used t i ∧ used t' (τ i) := by
    rintro i (⟨x, hx, rfl⟩ | ⟨c, q, e⟩)
    · exact ⟨.inl ⟨x, hx, rfl⟩, .inl ⟨_, (hp _).2 ⟨x, hx, rfl⟩, rfl⟩⟩
    · have e' := (hm c q (τ i)).2 ⟨i, e, rfl⟩
      obtain ⟨k, h1, h2⟩ := Option.map_eq_some_iff.1 e
      obtain ⟨k', h1', h2'⟩ := Option.map_eq_some_iff.1 e'
      exact ⟨.inr ⟨k, List.mem_of_find?_eq_some h1, h2⟩, .inr ⟨k', List.mem_of_find?_eq_some h1', h2'⟩⟩
  have hdec : ∃ f : Int → Option Int, ∀ n j, f n = some j ↔
      (live n ∧ j = τ n) ∨ ∃ x ∈ t.held, x.id = n ∧ ∃ x' ∈ t'.held, x'.procedure = x.procedure ∧ x'.id = j := by
    classical
    refine ⟨fun n => if h : ∃ j, (live n ∧ j = τ n) ∨
      ∃ x ∈ t.held, x.id = n ∧ ∃ x' ∈ t'.held, x'.procedure = x.procedure ∧ x'.id = j then some h.choose else none, fun n j => ?_⟩
    constructor
    · intro e
      simp only at e
      split at e
      · rename_i hx
        cases e
        exact hx.choose_spec
      · cases e
    · intro e
      have hj : ∃ j, (live n ∧ j = τ n) ∨
        ∃ x ∈ t.held, x.id = n ∧ ∃ x' ∈ t'.held, x'.procedure = x.procedure ∧ x'.id = j := ⟨j, e⟩
      simp only
      rw [dif_pos hj]
      congr 1
      have e' := hj.choose_spec
      generalize hj.choose = j' at e'
      rcases e with ⟨l1, rfl⟩ | ⟨x, hx, rfl, x', hx', e1, rfl⟩ <;> rcases e' with ⟨l2, rfl⟩ | ⟨y, hy, e0, y', hy', e2, rfl⟩
      · rfl
      · exact absurd (e0 ▸ (hlive _ l1).1) (h.apart y hy)
      · exact absurd (hlive _ l2).1 (h.apart x hx)
      · have := h.id y hy x hx e0
        subst this
        rw [h'.procedure y' hy' x' hx' (e2.trans e1.symm)]
  obtain ⟨f, hf⟩ := hdec
  have hone : OneToOne (joined t.next t'.next f) := by
    refine joined_one h'.pos ?_ ?_
    · intro i j e
      rcases (hf i j).1 e with ⟨l, rfl⟩ | ⟨x, hx, -, x', hx', -, rfl⟩
      · exact h'.usedRange _ (hlive _ l).2
      · exact h'.heldRange x' hx'
    · intro i i' j e e'
      rcases (hf _ _).1 e with ⟨l, rfl⟩ | ⟨x, hx, rfl, x', hx', e1, rfl⟩ <;>
        rcases (hf _ _).1 e' with ⟨l', e2⟩ | ⟨y, hy, rfl, y', hy', e2, e3⟩
      · exact hτ _ _ e2
      · exact absurd (e3 ▸ (hlive _ l).2) (h'.apart y' hy')
      · exact absurd (e2 ▸ (hlive _ l').2) (h'.apart x' hx')
      · have := h'.id y' hy' x' hx' e3
        subst this
        rw [h.procedure x hx y hy (e1.symm.trans e2)]
  have hids : ∀ x ∈ t.held, ∀ x' ∈ t'.held, x.procedure = x'.procedure → joined t.next t'.next f x.id = x'.id := by
    intro x hx x' hx' e
    exact joined_old (h.heldRange x hx).2 ((hf _ _).2 (.inr ⟨x, hx, rfl, x', hx', e.symm, rfl⟩))
  have hlv : ∀ i, live i → joined t.next t'.next f i = τ i := fun i l =>
    joined_old (h.usedRange _ (hlive i l).1).2 ((hf _ _).2 (.inl ⟨l, rfl⟩))
  refine ⟨_, hone, ⟨hk, ?_, ?_, ?_, fun i hi => joined_new f hi⟩, hids, fun x hx => hlv _ (.inl ⟨x, hx, rfl⟩),
    fun c q i e => hlv _ (.inr ⟨c, q, e⟩)⟩
  · rintro ⟨s, p, i'⟩
    constructor
    · intro hx'
      obtain ⟨i, hx⟩ := (hs s p).2 ⟨i', hx'⟩
      exact ⟨_, hx, by simp only [renReg, hids _ hx _ hx' rfl]⟩
    · rintro ⟨⟨s0, p0, i⟩, hx, e⟩
      simp only [renReg, Reg.mk.injEq] at e
      obtain ⟨rfl, rfl, rfl⟩ := e
      obtain ⟨i', hx'⟩ := (hs s p).1 ⟨i, hx⟩
      rw [hids _ hx _ hx' rfl]; exact hx'
  · intro x'
    rw [hp]
    constructor
    · rintro ⟨x, hx, rfl⟩; exact ⟨x, hx, by simp only [renCall, hlv x.inv (.inl ⟨x, hx, rfl⟩)]⟩
    · rintro ⟨x, hx, rfl⟩; exact ⟨x, hx, by simp only [renCall, hlv x.inv (.inl ⟨x, hx, rfl⟩)]⟩
  · intro c q
    cases e : t.mark c q with
    | none =>
      cases e' : t'.mark c q with
      | none => rfl
      | some k' =>
        obtain ⟨i, h1, -⟩ := (hm c q k'.inv).1 (by rw [e']; rfl)
        rw [e] at h1; cases h1
    | some k =>
      have h1 : (t.mark c q).map (·.inv) = some k.inv := by rw [e]; rfl
      rw [(hm c q (τ k.inv)).2 ⟨_, h1, rfl⟩]
      simp only [Option.map_some, hlv k.inv (.inr ⟨c, q, h1⟩)]

/-- What is observed after a history, in terms of the table. -/
theorem rpc_from (ops later : List Op) (h : (ops ++ later).length ≤ 2 ^ 53) :
    ((Dealer.trace (ops ++ later)).drop ops.length).map (fun e => ended e.2) = ((tableAfter ops).answers later).map some := by
  have h80 := (Dealer.C80_dealer_is_table (ops ++ later) h).2
  rw [rpc_answers_append, List.map_append] at h80
  have h2 := congrArg (List.drop ops.length) h80
  rw [List.drop_left' (by rw [List.length_map]; exact rpc_answers_length _ _), ← List.map_drop] at h2
  have e3 : (fun e : Dealer.Obs => ended e.2) = fun e => graded e.2 := funext fun e => ended_eq e.2
  rw [e3]; exact h2

/-- The slots of a dealer, in terms of its table. -/
theorem mark_iff (ops : List Op) (hl : ops.length ≤ 2 ^ 53) (s r i : Int) :
    ((tableAfter ops).mark s r).map (·.inv) = some i ↔ Current (Dealer.trace ops) s r i := by
  rw [(Dealer.sim_after ops hl).marks, Dealer.slot_iff]

/-- From now on a dealer does what any other does that has the same sessions connected, the same callees and the same calls in
progress, whatever happened before. -/
theorem C128_dealer (τ : Int → Int) (ops ops' : List Op) (hl : ops.length ≤ 2 ^ 53) (hl' : ops'.length ≤ 2 ^ 53)
    (h : RpcSame τ (Dealer.trace ops) (Dealer.trace ops')) : Dealers τ ops ops' := by
  have ht := Dealer.sim_after ops hl
  have ht' := Dealer.sim_after ops' hl'
  obtain ⟨ρ, h1, h2, h3, h4, h5⟩ := rpcRel_of_same h.one (rpcOk_after ops) (rpcOk_after ops')
    (by rw [ht.known, ht'.known]; exact h.known) (by rw [ht.held, ht'.held]; exact h.callees)
    (by rw [ht.pending, ht'.pending]; exact h.calls)
    (by intro c q i'; simp only [mark_iff _ hl, mark_iff _ hl']; exact h.current c q i')
  refine ⟨ρ, h1, ?_, ?_, ?_, ?_⟩
  · rw [ht.held, ht'.held] at h3; exact h3
  · rw [ht.pending] at h4; exact h4
  · intro s r i hi; exact h5 s r i ((mark_iff _ hl s r i).2 hi)
  · intro later hb hb'
    have e := rpc_from ops later hb
    rw [rpc_from ops' _ (by rw [List.length_append, List.length_map]; rw [List.length_append] at hb'; exact hb'),
      rpcRel_run h1 later (rpcOk_after ops') h2]
    have e2 := congrArg (List.map (Option.map (Except.map (rpcOutIds ρ)))) e
    rw [List.map_map, List.map_map] at e2
    rw [List.map_map]
    exact e2.symm

/-! What leaves no trace -/

theorem rpc_table_snoc (ops : List Op) (op : Op) : tableAfter (ops ++ [op]) = ((tableAfter ops).step op).1 := by simp [tableAfter]

theorem rpc_step_eq (ops : List Op) (hl : ops.length < 2 ^ 53) (op : Op) :
    graded (Dealer.outcome ops op) = some ((tableAfter ops).step op).2 := by
  have hd := Dealer.C30_ids_not_exhausted ops hl
  have hr := Dealer.rel_after ops hd
  exact (Dealer.sim_step (Dealer.wf_after ops) hr.1 hr.2 hd (Dealer.sim_after ops (by omega)) op).1

theorem rpcSame_of_table {ops ops' : List Op} (hl : ops.length ≤ 2 ^ 53) (hl' : ops'.length ≤ 2 ^ 53)
    (hk : (tableAfter ops').known = (tableAfter ops).known) (hh : (tableAfter ops').held = (tableAfter ops).held)
    (hp : (tableAfter ops').pending = (tableAfter ops).pending)
    (hm : ∀ c q, ((tableAfter ops').mark c q).map (·.inv) = ((tableAfter ops).mark c q).map (·.inv)) :
    RpcSame id (Dealer.trace ops) (Dealer.trace ops') := by
  have ht := Dealer.sim_after ops hl
  have ht' := Dealer.sim_after ops' hl'
  rw [ht.known, ht'.known] at hk
  rw [ht.held, ht'.held] at hh
  rw [ht.pending, ht'.pending] at hp
  refine ⟨fun _ _ h => h, by rw [hk]; exact fun _ => Iff.rfl, by rw [hh]; exact fun _ _ => Iff.rfl, ?_, ?_⟩
  · intro x'; rw [hp]
    exact ⟨fun h => ⟨x', h, rfl⟩, fun ⟨x, h, e⟩ => by subst e; exact h⟩
  · intro s r i'
    rw [← mark_iff _ hl', hm]
    constructor
    · intro h; exact ⟨i', (mark_iff _ hl _ _ _).1 h, rfl⟩
    · rintro ⟨i, h, rfl⟩; exact (mark_iff _ hl _ _ _).2 h

/-- A question whether a procedure is registered leaves no trace with the dealer, and neither does a call that raises `ValueError` or
is answered with a request's ERROR by the dealer itself. -/
theorem C128_refused_dealer (ops : List Op) (hl : ops.length < 2 ^ 53) (op : Op)
    (h : (∃ p, op = .hasRegistration p) ∨ (∃ msg, Dealer.outcome ops op = .error (.valueError msg)) ∨
      (∃ s m e r, op = .receiveMessage s (.register m) ∧ Dealer.outcome ops op = .ok (.reply ⟨.error e, r⟩)) ∨
      ∃ s m e r, op = .receiveMessage s (.call m) ∧ Dealer.outcome ops op = .ok (.reply ⟨.error e, r⟩)) :
    Dealers id ops (ops ++ [op]) := by
  have hl' : (ops ++ [op]).length ≤ 2 ^ 53 := by rw [List.length_append]; exact hl
  have hg := rpc_step_eq ops hl op
  have hstep : ((tableAfter ops).step op).1 = tableAfter ops := by
    rcases h with ⟨p, rfl⟩ | ⟨msg, h⟩ | ⟨s, m, e, r, rfl, h⟩ | ⟨s, m, e, r, rfl, h⟩
    · rfl
    · rw [h] at hg
      have hn : ((tableAfter ops).step op).2 = .error .valueError := (Option.some.inj hg).symm
      revert hn
      cases op with
      | receiveMessage s m =>
        cases m with
        | register m =>
          simp only [Table.step]
          split
          · split <;> simp
          · simp
        | unregister m => simp only [Table.step]; split <;> simp
        | call m =>
          simp only [Table.step]
          split
          · simp
          · split <;> simp
        | yield_ m =>
          simp only [Table.step]
          split
          · simp
          · split
            · simp
            · split
              · simp
              · split <;> simp
        | error m => simp only [Table.step]; split <;> simp
        | _ => simp [Table.step]
      | addSession d => simp only [Table.step]; split <;> simp
      | removeSession s => simp only [Table.step]; split <;> simp
      | hasRegistration topic => intro _; rfl
    · rw [h] at hg
      have hn := (Option.some.inj hg).symm
      revert hn
      simp only [Table.step]
      split
      · split <;> simp
      · simp
    · rw [h] at hg
      have hn := (Option.some.inj hg).symm
      revert hn
      simp only [Table.step]
      split
      · simp
      · split <;> simp [Rpc.invocation]
  have hs : tableAfter (ops ++ [op]) = tableAfter ops := (rpc_table_snoc ops op).trans hstep
  exact C128_dealer id _ _ (by omega) hl' (rpcSame_of_table (by omega) hl' (by rw [hs]) (by rw [hs]) (by rw [hs]) (by rw [hs]; exact fun _ _ => rfl))

theorem answered_table {t : Table} (ok : RpcOk t) {s : Int} {m : Call} {inv : Invocation} {c : Int}
    (hg : (t.step (.receiveMessage s (.call m))).2 = .ok (.reply ⟨.invocation inv, c⟩)) (hmark : t.mark s m.requestId.val = none)
    {y : Yield} (hy : y.requestId.val = inv.requestId.val) (hp : PyDict.flag y.options "progress" = false) :
    let t' := ((t.step (.receiveMessage s (.call m))).1.step (.receiveMessage c (.yield_ y))).1
    t'.known = t.known ∧ t'.held = t.held ∧ t'.pending = t.pending ∧ ∀ a q, (t'.mark a q).map (·.inv) = (t.mark a q).map (·.inv) := by
  cases hf : t.held.find? (fun x => decide (x.procedure = m.procedure)) with
  | none => simp [Table.step, hf] at hg
  | some x =>
    have hc : (if PyDict.flag m.options "progress" then t.mark s m.requestId.val else none) = none := by rw [hmark, ite_self]
    simp only [Table.step, hf, hc] at hg ⊢
    simp only [Rpc.invocation, Except.ok.injEq, Out.reply.injEq, MessageWithRecipient.mk.injEq, Message.invocation.injEq] at hg
    obtain ⟨hi, rfl⟩ := hg
    have hy : y.requestId.val = t.next := by rw [hy, ← hi]; rfl
    have hold : ∀ x ∈ t.pending, x.inv ≠ t.next := fun x hx e => by
      have := ok.usedRange _ (.inl ⟨x, hx, rfl⟩); omega
    have h1 : t.pending.find? (fun x => decide (x.inv = t.next)) = none := by
      rw [List.find?_eq_none]; intro x hx; simpa using hold x hx
    have h2 : t.pending.filter (fun x => decide (x.inv ≠ t.next)) = t.pending := by
      rw [List.filter_eq_self]; intro x hx; simpa using hold x hx
    have h3 : (t.unmark s m.requestId.val).find? (fun x => decide (x.caller = s ∧ x.request = m.requestId.val)) = none := by
      rw [Table.unmark, Dealer.find_unmark, if_pos rfl]
    have hmk : ({ t with pending := t.pending ++ [⟨t.next, s, m.requestId, x.session, PyDict.flag m.options "receive_progress"⟩],
                         marks := t.unmark s m.requestId.val ++ [⟨s, m.requestId.val, t.next⟩],
                         next := t.next + 1 } : Table).mark s m.requestId.val = some ⟨s, m.requestId.val, t.next⟩ := by
      simp only [Table.mark, List.find?_append, h3, Option.none_or, List.find?_cons, and_self, decide_true]
    simp only [hy, hp, List.find?_append, h1, Option.none_or, List.find?_cons, decide_true, Bool.false_and, ne_eq, not_true,
      if_false, hmk, Bool.false_eq_true]
    refine ⟨trivial, trivial, ?_, ?_⟩
    · rw [List.filter_append]
      simp only [ne_eq] at h2
      rw [h2]
      simp
    · intro a q
      simp only [Table.mark, Table.unmark, Dealer.find_unmark, List.find?_append]
      split
      · rename_i e
        cases e
        simp only [Table.mark] at hmark
        rw [hmark]
      · rename_i e
        have : decide (s = a ∧ m.requestId.val = q) = false := decide_eq_false fun ⟨e1, e2⟩ => e (by rw [e1, e2])
        simp only [List.find?_cons, this, List.find?_nil, Option.or_none]

/-- A call that was answered leaves none, if its request id was not in use before. -/
theorem C128_answered (ops : List Op) (hl : ops.length + 2 ≤ 2 ^ 53) (s : Int) (m : Call) (inv : Invocation) (c : Int)
    (h : Dealer.outcome ops (.receiveMessage s (.call m)) = .ok (.reply ⟨.invocation inv, c⟩))
    (hf : ∀ i, ¬ Current (Dealer.trace ops) s m.requestId.val i) (y : Yield) (hy : y.requestId.val = inv.requestId.val)
    (hp : PyDict.flag y.options "progress" = false) :
    Dealers id ops (ops ++ [.receiveMessage s (.call m), .receiveMessage c (.yield_ y)]) := by
  have hg := rpc_step_eq ops (by omega) (.receiveMessage s (.call m))
  rw [h] at hg
  have hg := (Option.some.inj hg).symm
  have hmark : (tableAfter ops).mark s m.requestId.val = none := by
    cases e : (tableAfter ops).mark s m.requestId.val with
    | none => rfl
    | some k => exact absurd ((mark_iff ops (by omega) s m.requestId.val k.inv).1 (by rw [e]; rfl)) (hf _)
  have ht : tableAfter (ops ++ [.receiveMessage s (.call m), .receiveMessage c (.yield_ y)]) =
      (((tableAfter ops).step (.receiveMessage s (.call m))).1.step (.receiveMessage c (.yield_ y))).1 := by
    simp [tableAfter]
  have hl' : (ops ++ [Op.receiveMessage s (.call m), Op.receiveMessage c (.yield_ y)]).length ≤ 2 ^ 53 := by
    rw [List.length_append]; exact hl
  obtain ⟨a1, a2, a3, a4⟩ := answered_table (rpcOk_after ops) hg hmark hy hp
  rw [← ht] at a1 a2 a3 a4
  exact C128_dealer id _ _ (by omega) hl' (rpcSame_of_table (by omega) hl' a1 a2 a3 a4)

end

/-! Two brokers: two subscribers; the same, but joined in another order and after a third that subscribed elsewhere, published and
left; and the two in the other order, which is told apart. -/

def sub (s : Int) (topic : String) : Broker.Op := .receiveMessage s (.subscribe { requestId := .int 1, topic := topic })

def plain : List Broker.Op :=
  [.addSession { sessionId := .int 1, realm := "r" }, .addSession { sessionId := .int 2, realm := "r" }, sub 1 "t", sub 2 "t", sub 2 "v"]

def eventful : List Broker.Op :=
  [.addSession { sessionId := .int 2, realm := "r" }, .addSession { sessionId := .int 3, realm := "r" },
   .addSession { sessionId := .int 1, realm := "r" }, sub 2 "v", sub 3 "t", sub 1 "t",
   .receivePublish 3 { requestId := .int 5, topic := "t" }, .removeSession 3, sub 2 "t"]

def swapped : List Broker.Op :=
  [.addSession { sessionId := .int 1, realm := "r" }, .addSession { sessionId := .int 2, realm := "r" }, sub 2 "t", sub 1 "t", sub 2 "v"]

theorem plain_eventful : PubSame (Pub.view (Broker.trace plain)) (Pub.view (Broker.trace eventful)) := by
  have h1 : (Pub.view (Broker.trace plain)).known = [1, 2] ∧
      (Pub.view (Broker.trace plain)).held = [⟨1, "t", 1⟩, ⟨2, "t", 1⟩, ⟨2, "v", 2⟩] := by decide +kernel
  have h2 : (Pub.view (Broker.trace eventful)).known = [2, 1] ∧
      (Pub.view (Broker.trace eventful)).held = [⟨2, "v", 1⟩, ⟨1, "t", 2⟩, ⟨2, "t", 2⟩] := by decide +kernel
  constructor
  · intro s; rw [h1.1, h2.1]; simp [or_comm]
  · intro topic
    simp only [Pub.View.subscribers, Pub.subscribersOf, h1.2, h2.2]
    by_cases e1 : "t" = topic
    · subst e1; decide
    · by_cases e2 : "v" = topic
      · subst e2; decide
      · simp [e1, e2]

example : Brokers plain eventful := C128_broker _ _ (by decide) (by decide) plain_eventful

example : ¬ Brokers plain swapped := by
  rw [C128_broker_exact _ _ (by decide) (by decide)]
  intro h
  have := h.subscribers "t"
  revert this; decide +kernel

/-! A dealer with a call in progress, and one on which other calls were made before. -/

def quiet : List Dealer.Op :=
  [.addSession { sessionId := .int 1, realm := "r" }, .addSession { sessionId := .int 2, realm := "r" },
   .receiveMessage 1 (.register { requestId := .int 1, procedure := "p" }),
   .receiveMessage 2 (.call { requestId := .int 7, procedure := "p" })]

def busy : List Dealer.Op :=
  [.addSession { sessionId := .int 2, realm := "r" }, .addSession { sessionId := .int 1, realm := "r" },
   .receiveMessage 2 (.register { requestId := .int 1, procedure := "q" }),
   .receiveMessage 1 (.register { requestId := .int 1, procedure := "p" }),
   .receiveMessage 1 (.call { requestId := .int 7, procedure := "q" }),
   .receiveMessage 2 (.yield_ { requestId := .int 3 }),
   .receiveMessage 2 (.unregister { requestId := .int 2, registrationId := .int 1 }),
   .receiveMessage 2 (.call { requestId := .int 7, procedure := "p" })]

theorem quiet_busy : RpcSame (· + 2) (Dealer.trace quiet) (Dealer.trace busy) := by
  have h1 : (Rpc.view (Dealer.trace quiet)).known = [1, 2] ∧ (Rpc.view (Dealer.trace quiet)).held = [⟨1, "p", 1⟩] ∧
      (Rpc.view (Dealer.trace quiet)).pending = [⟨2, 2, .int 7, 1, false⟩] := by decide +kernel
  have h2 : (Rpc.view (Dealer.trace busy)).known = [2, 1] ∧ (Rpc.view (Dealer.trace busy)).held = [⟨1, "p", 2⟩] ∧
      (Rpc.view (Dealer.trace busy)).pending = [⟨4, 2, .int 7, 1, false⟩] := by decide +kernel
  have m1 : (Dealer.tableAfter quiet).marks = [⟨2, 7, 2⟩] := by decide +kernel
  have m2 : (Dealer.tableAfter busy).marks = [⟨2, 7, 4⟩] := by decide +kernel
  refine ⟨fun x y h => ?_, ?_, ?_, ?_, ?_⟩
  · omega
  · intro s; rw [h1.1, h2.1]; simp [or_comm]
  · intro s p; rw [h1.2.1, h2.2.1]; simp
  · intro x; rw [h1.2.2, h2.2.2]; simp
  · intro s r i'
    have hq := fun i => mark_iff quiet (by decide) s r i
    have hb := mark_iff busy (by decide) s r i'
    simp only [Rpc.Table.mark, m1, m2, List.find?_cons, List.find?_nil] at hq hb
    rw [← hb]
    simp only [← hq]
    cases decide ((2 : Int) = s ∧ 7 = r)
    · simp
    · simp [eq_comm]

example : Dealers (· + 2) quiet busy := C128_dealer _ _ _ (by decide) (by decide) quiet_busy

/-- A call that is answered, on a dealer where that request id is free. -/
example : ∃ inv, Dealer.outcome quiet (.receiveMessage 2 (.call { requestId := .int 8, procedure := "p" })) = .ok (.reply ⟨.invocation inv, 1⟩) ∧
    inv.requestId.val = 3 ∧ ∀ i, ¬ Rpc.Current (Dealer.trace quiet) 2 8 i := by
  refine ⟨{ requestId := .int 3, registrationId := .int 1 }, by rfl, rfl, fun i => ?_⟩
  have m1 : (Dealer.tableAfter quiet).mark 2 8 = none := by decide +kernel
  rw [← mark_iff quiet (by decide), m1]; simp

/-- Calls that are refused. -/
example : (Broker.outcome plain (.removeSession 9)).toOption = none ∧
    (∃ msg, Dealer.outcome quiet (.receiveMessage 2 (.yield_ { requestId := .int 2 })) = .error (.valueError msg)) ∧
    (∃ e r, Dealer.outcome quiet (.receiveMessage 2 (.register { requestId := .int 9, procedure := "p" })) = .ok (.reply ⟨.error e, r⟩)) :=
  ⟨by rfl, ⟨_, by rfl⟩, ⟨_, _, by rfl⟩⟩

end Wamp.Spec.Present
