import Verif.Spec.Unrelated
import Verif.Props.Present

/-! # Unrelated requests may be handled in either order: C132 -/

namespace Wamp.Spec.Unrelated
open Wamp.Spec.Tenants Wamp.Spec.Present
open Wamp.Spec.Naming (OneToOne)
open Wamp.Spec.AsNew (ended ended_eq)
open Wamp.Dealer (graded)

/-- Exchanges `n` and `n + 1`. -/
def swap (n i : Int) : Int := if i = n then n + 1 else if i = n + 1 then n else i

theorem swap_one (n : Int) : OneToOne (swap n) := by
  intro x y h
  unfold swap at h
  split at h <;> split at h <;> (try split at h) <;> (try split at h) <;> omega

/-! ## The broker -/

section
open Wamp.Spec.Pub (Table Holding subscribersOf)
open Wamp.Broker (Op Out tableAfter)

/-- What a call does to the table, and its outcome, given the next id. -/
structure PubEff where
  join : Option Int := none
  leave : Option Int := none
  drop : Holding → Bool := fun _ => false
  add : Option (Int × String × Option Int) := none
  draws : Bool := false
  out : Int → Option Out := fun _ => none

/-- What is done to the table. -/
def PubEff.on (e : PubEff) (t : Table) : Table where
  known := (t.known ++ e.join.toList).filter fun s => e.leave ≠ some s
  held := t.held.filter (fun x => !e.drop x) ++ (e.add.map fun a => (⟨a.1, a.2.1, a.2.2.getD t.next⟩ : Holding)).toList
  next := t.next + if e.draws then 1 else 0

/-- The effect of a call. -/
def pubEff (t : Table) : Op → PubEff
  | .addSession d =>
    if d.sessionId.val ∈ t.known then {} else { join := some d.sessionId.val, out := fun _ => some .unit }
  | .removeSession s =>
    if s ∈ t.known then { leave := some s, drop := fun x => x.session = s, out := fun _ => some .unit } else {}
  | .receiveMessage s (.subscribe m) =>
    if s ∈ t.known then
      match t.held.find? (·.topic = m.topic) with
      | none => { add := some (s, m.topic, none), draws := true, out := fun i => some (.reply ⟨.subscribed ⟨m.requestId, .int i⟩, s⟩) }
      | some x => { add := if s ∈ subscribersOf t.held m.topic then none else some (s, m.topic, some x.id),
                    out := fun _ => some (.reply ⟨.subscribed ⟨m.requestId, .int x.id⟩, s⟩) }
    else {}
  | .receiveMessage s (.unsubscribe m) =>
    if ∃ x ∈ t.held, x.session = s ∧ x.id = m.subscriptionId.val then
      { drop := fun x => x.session = s ∧ x.id = m.subscriptionId.val, out := fun _ => some (.reply ⟨.unsubscribed ⟨m.requestId⟩, s⟩) }
    else {}
  | .receiveMessage _ _ => {}
  | .receivePublish s m =>
    if s ∈ t.known then
      { draws := true
        out := fun i => some (.publication {
          recipients := subscribersOf t.held m.topic
          event := (t.held.find? (·.topic = m.topic)).map fun x =>
            { subscriptionId := .int x.id, publicationId := .int i, args := m.args, kwargs := m.kwargs }
          ack := if PyDict.flag m.options "acknowledge" then some ⟨.published ⟨m.requestId, .int i⟩, s⟩ else none }) }
    else {}
  | .hasSubscription topic => { out := fun _ => some (.bool (t.held.any (·.topic = topic))) }

theorem filter_all {α : Type} (l : List α) : l.filter (fun _ => true) = l := List.filter_eq_self.2 fun _ _ => rfl

theorem pubEff_nil (t : Table) (o : Int → Option Out) : ({ out := o } : PubEff).on t = t := by
  cases t; simp [PubEff.on]

theorem pubEff_step (t : Table) (op : Op) : t.step op = ((pubEff t op).on t, (pubEff t op).out t.next) := by
  cases op with
  | addSession d =>
    by_cases h : d.sessionId.val ∈ t.known
    · simp only [Table.step, pubEff, h, if_true, pubEff_nil]
    · simp [Table.step, pubEff, h, PubEff.on, filter_all]
  | removeSession s =>
    by_cases h : s ∈ t.known
    · simp [Table.step, pubEff, h, PubEff.on, eq_comm]
    · simp only [Table.step, pubEff, h, if_false, pubEff_nil]
  | receivePublish s m =>
    by_cases h : s ∈ t.known
    · simp [Table.step, pubEff, h, PubEff.on, filter_all]
    · simp only [Table.step, pubEff, h, if_false, pubEff_nil]
  | hasSubscription q => exact congrArg (·, _) (pubEff_nil t _).symm
  | receiveMessage s m =>
    cases m <;> try exact congrArg (·, none) (pubEff_nil t _).symm
    case subscribe m =>
      by_cases h : s ∈ t.known
      · cases hf : t.held.find? (·.topic = m.topic) with
        | none => simp [Table.step, pubEff, h, hf, PubEff.on, filter_all]
        | some x => by_cases hs : s ∈ subscribersOf t.held m.topic <;> simp [Table.step, pubEff, h, hf, hs, PubEff.on, filter_all]
      · simp only [Table.step, pubEff, h, if_false, pubEff_nil]
    case unsubscribe m =>
      by_cases h : ∃ x ∈ t.held, x.session = s ∧ x.id = m.subscriptionId.val
      · simp only [Table.step, pubEff, if_pos h]; simp [PubEff.on, filter_all]
      · simp only [Table.step, pubEff, if_neg h, pubEff_nil]

/-- The effect stays within what the call is about. -/
structure PubWithin (t : Table) (op : Op) (e : PubEff) : Prop where
  join : ∀ s, e.join = some s → pubBy op = some s
  leave : ∀ s, e.leave = some s → pubBy op = some s
  dropBy : ∀ x, e.drop x = true → pubBy op = some x.session
  drop : ∀ x ∈ t.held, e.drop x = true → pubWrites t.held op x.topic
  add : ∀ s p o, e.add = some (s, p, o) → pubBy op = some s ∧ pubWrites t.held op p ∧
    ((o = none → e.draws = true) ∧ ∀ i, o = some i → ∃ x ∈ t.held, x.id = i)
  out : ∀ ρ : Int → Int, (∀ x ∈ t.held, ρ x.id = x.id) → ∀ i, (e.out i).map (pubOutIds ρ) = e.out (ρ i)
  same : e.draws = false → ∀ i j, e.out i = e.out j

theorem pubWithin_nil (t : Table) (op : Op) : PubWithin t op {} :=
  ⟨nofun, nofun, nofun, fun _ _ h => (by cases h), nofun, fun _ _ _ => rfl, fun _ _ _ => rfl⟩

theorem pubWithin (t : Table) (op : Op) : PubWithin t op (pubEff t op) := by
  cases op with
  | addSession d =>
    simp only [pubEff]
    split
    · exact pubWithin_nil t _
    · exact ⟨fun s h => (by simpa [pubBy] using h), nofun, nofun, fun _ _ h => (by cases h), nofun, fun _ _ _ => rfl, fun _ _ _ => rfl⟩
  | removeSession s =>
    simp only [pubEff]
    split
    · exact ⟨nofun, fun s h => (by simpa [pubBy] using h), fun x h => (by simpa [pubBy, eq_comm] using h),
        fun x hx h => ⟨x.id, (by have : x.session = s := by simpa using h
                                 rw [← this]; exact hx)⟩, nofun, fun _ _ _ => rfl, fun _ _ _ => rfl⟩
    · exact pubWithin_nil t _
  | receivePublish s m =>
    simp only [pubEff]
    split
    · refine ⟨nofun, nofun, nofun, fun _ _ h => (by cases h), nofun, fun ρ hρ i => ?_, nofun⟩
      cases hf : t.held.find? (·.topic = m.topic) with
      | none => cases PyDict.flag m.options "acknowledge" <;> rfl
      | some x =>
        have hx := hρ x (List.mem_of_find?_eq_some hf)
        cases PyDict.flag m.options "acknowledge" <;> simp [pubOutIds, sent, ids, PyInt.val, hx]
    · exact pubWithin_nil t _
  | hasSubscription q => exact ⟨nofun, nofun, nofun, fun _ _ h => (by cases h), nofun, fun _ _ _ => rfl, fun _ _ _ => rfl⟩
  | receiveMessage s m =>
    cases m <;> try exact pubWithin_nil t _
    case subscribe m =>
      simp only [pubEff]
      split
      · split
        · refine ⟨nofun, nofun, nofun, fun _ _ h => (by cases h), ?_, fun ρ hρ i => (by simp [pubOutIds, sent, ids, PyInt.val]), nofun⟩
          intro s' p o h
          simp only [Option.some.injEq, Prod.mk.injEq] at h
          obtain ⟨rfl, rfl, rfl⟩ := h
          exact ⟨rfl, rfl, fun _ => rfl, nofun⟩
        · rename_i x hf
          refine ⟨nofun, nofun, nofun, fun _ _ h => (by cases h), ?_, fun ρ hρ i => ?_, fun _ _ _ => rfl⟩
          · intro s' p o h
            dsimp only at h
            split at h
            · cases h
            · simp only [Option.some.injEq, Prod.mk.injEq] at h
              obtain ⟨rfl, rfl, rfl⟩ := h
              exact ⟨rfl, rfl, nofun, fun i hi => ⟨x, List.mem_of_find?_eq_some hf, Option.some.inj hi⟩⟩
          · simp [pubOutIds, sent, ids, PyInt.val, hρ x (List.mem_of_find?_eq_some hf)]
      · exact pubWithin_nil t _
    case unsubscribe m =>
      simp only [pubEff]
      split
      · refine ⟨nofun, nofun, fun x h => ?_, fun x hx h => ?_, nofun, fun _ _ _ => rfl, fun _ _ _ => rfl⟩
        · have : x.session = s ∧ x.id = m.subscriptionId.val := by simpa using h
          simp [pubBy, this.1]
        · have : x.session = s ∧ x.id = m.subscriptionId.val := by simpa using h
          show (⟨s, x.topic, m.subscriptionId.val⟩ : Holding) ∈ t.held
          rw [← this.1, ← this.2]; exact hx
      · exact pubWithin_nil t _

/-- The call has the same effect on a table that is the same as far as the call is concerned. -/
theorem pubEff_stable {t t' : Table} (a : Op) (hk : ∀ s, pubBy a = some s → (s ∈ t'.known ↔ s ∈ t.known))
    (ho : ∀ x, pubBy a = some x.session → (x ∈ t'.held ↔ x ∈ t.held))
    (hp : ∀ p, pubWrites t.held a p ∨ pubReads a p → t'.held.filter (·.topic = p) = t.held.filter (·.topic = p)) :
    pubEff t' a = pubEff t a := by
  have hfind : ∀ p, t'.held.filter (·.topic = p) = t.held.filter (·.topic = p) →
      t'.held.find? (·.topic = p) = t.held.find? (·.topic = p) := by
    intro p h; rw [← List.head?_filter, ← List.head?_filter, h]
  have hsubs : ∀ p, t'.held.filter (·.topic = p) = t.held.filter (·.topic = p) → subscribersOf t'.held p = subscribersOf t.held p := by
    intro p h; unfold subscribersOf; rw [h]
  have hany : ∀ p, t'.held.filter (·.topic = p) = t.held.filter (·.topic = p) →
      t'.held.any (·.topic = p) = t.held.any (·.topic = p) := by
    intro p h; rw [← List.isSome_find?, ← List.isSome_find?, hfind p h]
  cases a with
  | addSession d => simp only [pubEff, hk _ rfl]
  | removeSession s => simp only [pubEff, hk _ rfl]
  | receivePublish s m =>
    have h := hp m.topic (.inr rfl)
    simp only [pubEff, hk _ rfl, hfind _ h, hsubs _ h]
  | hasSubscription q =>
    have h := hp q (.inr rfl)
    simp only [pubEff, hany _ h]
  | receiveMessage s m =>
    cases m <;> try rfl
    case subscribe m =>
      have h := hp m.topic (.inl rfl)
      simp only [pubEff, hk _ rfl, hfind _ h, hsubs _ h]
    case unsubscribe m =>
      have : (∃ x ∈ t'.held, x.session = s ∧ x.id = m.subscriptionId.val) ↔ ∃ x ∈ t.held, x.session = s ∧ x.id = m.subscriptionId.val :=
        ⟨fun ⟨x, h1, h2, h3⟩ => ⟨x, (ho x (by rw [h2]; rfl)).1 h1, h2, h3⟩, fun ⟨x, h1, h2, h3⟩ => ⟨x, (ho x (by rw [h2]; rfl)).2 h1, h2, h3⟩⟩
      simp only [pubEff, this]

theorem pub_known {t : Table} {op : Op} {e : PubEff} (w : PubWithin t op e) {s : Int} (hs : pubBy op ≠ some s) :
    s ∈ (e.on t).known ↔ s ∈ t.known := by
  have h1 : e.join ≠ some s := fun h => hs (w.join s h)
  have h2 : e.leave ≠ some s := fun h => hs (w.leave s h)
  simp [PubEff.on, h1, h2]

theorem pub_own {t : Table} {op : Op} {e : PubEff} (w : PubWithin t op e) {x : Holding} (hs : pubBy op ≠ some x.session) :
    x ∈ (e.on t).held ↔ x ∈ t.held := by
  have h1 : e.drop x = false := by
    cases h : e.drop x with
    | false => rfl
    | true => exact absurd (w.dropBy x h) hs
  simp only [PubEff.on, List.mem_append, List.mem_filter, h1, Bool.not_false, and_true, Option.mem_toList, Option.map_eq_some_iff]
  refine ⟨fun h => h.elim id ?_, .inl⟩
  rintro ⟨⟨s, p, o⟩, ha, rfl⟩
  exact absurd (w.add s p o ha).1 hs

theorem pub_topic {t u : Table} {op : Op} {e : PubEff} (w : PubWithin t op e) {p : String} (hp : ¬ pubWrites t.held op p)
    (hu : ∀ x ∈ u.held, pubBy op = some x.session → x ∈ t.held) :
    (e.on u).held.filter (·.topic = p) = u.held.filter (·.topic = p) := by
  simp only [PubEff.on, List.filter_append, List.filter_filter]
  have h1 : (e.add.map fun a => (⟨a.1, a.2.1, a.2.2.getD u.next⟩ : Holding)).toList.filter (·.topic = p) = [] := by
    rw [List.filter_eq_nil_iff]
    intro x hx
    rw [Option.mem_toList, Option.map_eq_some_iff] at hx
    obtain ⟨⟨s, q, o⟩, ha, rfl⟩ := hx
    simp only [decide_eq_true_eq]
    rintro rfl
    exact hp (w.add s _ o ha).2.1
  rw [h1, List.append_nil]
  refine List.filter_congr fun x hx => ?_
  by_cases hq : x.topic = p
  · cases h : e.drop x with
    | false => simp
    | true => exact absurd (hq ▸ w.drop x (hu x hx (w.dropBy x h)) h) hp
  · simp [hq]

/-- The effect of a call is the same after another one that is unrelated. -/
theorem pub_after {v : Pub.View} {t : Table} {a b : Op} (hv : v.held = t.held) (h : PubUnrelated v a b) :
    pubEff ((pubEff t b).on t) a = pubEff t a := by
  have w := pubWithin t b
  have hs : ∀ s, pubBy a = some s → pubBy b ≠ some s := h.sessions
  refine pubEff_stable a (fun s e => pub_known w (hs s e)) (fun x e => pub_own w (hs _ e)) fun p hp => pub_topic w ?_ fun x hx _ => hx
  intro hb
  rw [← hv] at hb hp
  rcases hp with hp | hp
  · exact h.both p hp hb
  · exact h.second p hb hp

theorem PubUnrelated.symm {v : Pub.View} {a b : Op} (h : PubUnrelated v a b) : PubUnrelated v b a :=
  ⟨fun s hb ha => h.sessions s ha hb, fun p hb ha => h.both p ha hb, h.second, h.first⟩

/-- The two new ids are exchanged if both calls draw one. -/
def exchange (n : Int) (da db : Bool) : Int → Int := if da && db then swap n else id

theorem exchange_one (n : Int) (da db : Bool) : OneToOne (exchange n da db) := by
  unfold exchange; split
  · exact swap_one n
  · exact fun _ _ h => h

theorem exchange_old (n : Int) (da db : Bool) {i : Int} (h : i ≠ n) (h' : i ≠ n + 1) : exchange n da db i = i := by
  unfold exchange; split
  · unfold swap; rw [if_neg h, if_neg h']
  · rfl

theorem exchange_a {n : Int} {da : Bool} (db : Bool) (h : da = true) : exchange n da db n = n + if db then 1 else 0 := by
  subst h; cases db <;> simp [exchange, swap]

theorem exchange_b {n : Int} {db : Bool} (da : Bool) (h : db = true) : exchange n da db (n + if da then 1 else 0) = n := by
  subst h; cases da <;> simp [exchange, swap] <;> omega

theorem map_old {ρ : Int → Int} {l : List Holding} (h : ∀ x ∈ l, ρ x.id = x.id) : l.map (ren ρ) = l := by
  conv => rhs; rw [← List.map_id l]
  exact List.map_congr_left fun x hx => by simp [ren, h x hx]

/-- One of the two calls changes a topic, the other does not. -/
theorem pub_one {ρ : Int → Int} {t u u' : Table} {a : Op} {e : PubEff} (w : PubWithin t a e) (hold : ∀ x ∈ t.held, ρ x.id = x.id)
    {p : String} (hu : u.held.filter (·.topic = p) = t.held.filter (·.topic = p))
    (hu' : u'.held.filter (·.topic = p) = t.held.filter (·.topic = p)) (hn : e.draws = true → ρ u.next = u'.next) :
    (e.on u').held.filter (·.topic = p) = ((e.on u).held.filter (·.topic = p)).map (ren ρ) := by
  have h0 : ∀ l : List Holding, (l.filter fun x => !e.drop x).filter (·.topic = p) = (l.filter (·.topic = p)).filter fun x => !e.drop x := by
    intro l; rw [List.filter_filter, List.filter_filter]; exact List.filter_congr fun x _ => Bool.and_comm _ _
  simp only [PubEff.on, List.filter_append, List.map_append]
  rw [h0, h0, hu, hu']
  congr 1
  · exact (map_old fun x hx => hold x ((List.mem_filter.1 (List.mem_filter.1 hx).1).1)).symm
  · cases ha : e.add with
    | none => rfl
    | some y =>
      obtain ⟨s, q, o⟩ := y
      have hw := (w.add s q o ha).2.2
      have hi : o.getD u'.next = ρ (o.getD u.next) := by
        cases o with
        | none => exact (hn (hw.1 rfl)).symm
        | some i => obtain ⟨x, hx, rfl⟩ := hw.2 i rfl; exact (hold x hx).symm
      by_cases hq : q = p <;> simp [hq, ren, hi]

/-- The two orders lead to tables that differ in nothing but ids. -/
theorem pub_either {v : Pub.View} {t : Table} {a b : Op} (ok : PubOk t) (hv : v.held = t.held) (h : PubUnrelated v a b) :
    ∃ ρ, OneToOne ρ ∧ (∀ i, i ≠ t.next → i ≠ t.next + 1 → ρ i = i) ∧
      ((t.step b).1.step a).2 = (t.step a).2.map (pubOutIds ρ) ∧
      (t.step b).2 = ((t.step a).1.step b).2.map (pubOutIds ρ) ∧
      PubRel ρ ((t.step a).1.step b).1 ((t.step b).1.step a).1 := by
  have wa := pubWithin t a
  have wb := pubWithin t b
  have ea := pub_after hv h
  have eb := pub_after hv h.symm
  simp only [pubEff_step, ea, eb]
  generalize pubEff t a = e at *
  generalize pubEff t b = f at *
  have hold : ∀ x ∈ t.held, exchange t.next e.draws f.draws x.id = x.id := by
    intro x hx
    have := ok.range x hx
    exact exchange_old _ _ _ (by omega) (by omega)
  refine ⟨exchange t.next e.draws f.draws, exchange_one _ _ _, fun i => exchange_old _ _ _, ?_, ?_, ?_, ?_, ?_⟩
  · rw [wa.out _ hold]
    by_cases hd : e.draws = true
    · rw [exchange_a _ hd]; rfl
    · exact wa.same (by simpa using hd) _ _
  · rw [wb.out _ hold]
    by_cases hd : f.draws = true
    · show _ = f.out (exchange _ _ _ (t.next + if e.draws then 1 else 0))
      rw [exchange_b _ hd]
    · exact wb.same (by simpa using hd) _ _
  · intro s
    have hj : ∀ s, e.join = some s ∨ e.leave = some s → ¬ (f.join = some s ∨ f.leave = some s) := by
      intro s h1 h2
      exact h.sessions s (h1.elim (wa.join s) (wa.leave s)) (h2.elim (wb.join s) (wb.leave s))
    have := hj s
    simp only [PubEff.on, List.mem_append, List.mem_filter, Option.mem_toList, decide_eq_true_eq, ne_eq]
    constructor
    · rintro ⟨⟨h1 | h1, h2⟩ | h1, h3⟩
      · exact ⟨.inl ⟨.inl h1, h3⟩, h2⟩
      · exact ⟨.inr h1, h2⟩
      · exact ⟨.inl ⟨.inr h1, h3⟩, fun h4 => this (.inr h4) (.inl h1)⟩
    · rintro ⟨⟨h1 | h1, h2⟩ | h1, h3⟩
      · exact ⟨.inl ⟨.inl h1, h3⟩, h2⟩
      · exact ⟨.inr h1, h2⟩
      · exact ⟨.inl ⟨.inr h1, h3⟩, fun h4 => this (.inl h1) (.inr h4)⟩
  · intro p
    have hab : ∀ x ∈ (f.on t).held, pubBy a = some x.session → x ∈ t.held := fun x hx hs => (pub_own wb (h.sessions _ hs)).1 hx
    have hba : ∀ x ∈ (e.on t).held, pubBy b = some x.session → x ∈ t.held := fun x hx hs => (pub_own wa (h.symm.sessions _ hs)).1 hx
    by_cases hb : pubWrites t.held b p
    · have ha : ¬ pubWrites t.held a p := fun ha => h.both p (hv ▸ ha) (hv ▸ hb)
      rw [pub_topic wa ha hab]
      exact pub_one wb hold (pub_topic wa ha fun _ hx _ => hx) rfl fun hd => exchange_b _ hd
    · rw [pub_topic wb hb hba]
      exact pub_one wa hold rfl (pub_topic wb hb fun _ hx _ => hx) fun hd => exchange_a _ hd
  · intro i hi
    simp only [PubEff.on] at hi ⊢
    have : exchange t.next e.draws f.draws i = i := by
      unfold exchange
      cases hd : e.draws <;> cases hd' : f.draws <;> try rfl
      rw [hd, hd'] at hi
      simp only [if_true] at hi
      simp only [Bool.and_true, if_true, swap]
      rw [if_neg (by omega), if_neg (by omega)]
    rw [this]; omega

/-- Unrelated calls of the broker's API may come in either order. -/
theorem C132_broker (ops : List Op) (a b : Op) (hl : ops.length + 2 ≤ 2 ^ 53) (h : PubUnrelated (Pub.view (Broker.trace ops)) a b) :
    PubEither ops a b := by
  have ht := Broker.tableAfter_eq ops (by omega)
  obtain ⟨ρ, h1, h2, h3, h4, h5⟩ := pub_either (pubOk_after ops) (by rw [ht]) h
  have hout : ∀ l op, l.length < 2 ^ 53 → (Broker.outcome l op).toOption = ((tableAfter l).step op).2 := by
    intro l op hl
    rw [Broker.tableAfter_eq l (by omega)]; exact (Broker.table_step l hl op).1
  refine ⟨ρ, h1, ?_, ?_, ?_, ?_⟩
  · intro i hi hi'
    have hn : (tableAfter ops).next = (Pub.view (Broker.trace ops)).drawn + 1 := by rw [ht]
    exact h2 i (by rw [hn]; exact hi) (by rw [hn]; omega)
  · rw [hout _ _ (by simp; omega), hout _ _ (by omega), pub_table_snoc]; exact h3
  · rw [hout _ _ (by omega), hout _ _ (by simp; omega), pub_table_snoc]; exact h4
  · intro later hb
    have e1 : ∀ x y : Op, (ops ++ [x, y]).length = ops.length + 2 := fun x y => by simp
    have e2 : ∀ x y : Op, tableAfter (ops ++ [x, y]) = (((tableAfter ops).step x).1.step y).1 := by
      intro x y
      rw [← pub_table_snoc, ← pub_table_snoc, List.append_assoc]; rfl
    have f1 := pub_from (ops ++ [b, a]) (later.map (pubIds ρ)) (by rw [List.length_append, List.length_map, e1]; exact hb)
    have f2 := pub_from (ops ++ [a, b]) later (by rw [List.length_append, e1]; exact hb)
    rw [e1] at f1 f2
    rw [f1, e2, pubRel_run h1 later h5, ← e2, ← f2, List.map_map]
    rfl

end

/-! ## The dealer -/

section
open Wamp.Spec.Rpc (Table Reg Pending Mark Failure invocation)
open Wamp.Dealer (Op Out tableAfter)

/-- What a call does to the table, and its outcome, given the next id. -/
structure RpcEff where
  join : Option Int := none
  leave : Option Int := none
  drop : Reg → Bool := fun _ => false
  reg : Option (Int × String) := none
  close : Option Int := none
  call : Option (Int × PyInt × Int × Bool) := none
  unmark : Option (Int × Int) := none
  mark : Bool := false
  draws : Bool := false
  out : Int → Except Failure Out := fun _ => .error .valueError

/-- What is done to the table. -/
def RpcEff.on (e : RpcEff) (t : Table) : Table where
  known := (t.known ++ e.join.toList).filter fun s => e.leave ≠ some s
  held := t.held.filter (fun x => !e.drop x) ++ (e.reg.map fun a => (⟨a.1, a.2, t.next⟩ : Reg)).toList
  pending := t.pending.filter (fun x => e.close ≠ some x.inv) ++
    (e.call.map fun a => (⟨t.next, a.1, a.2.1, a.2.2.1, a.2.2.2⟩ : Pending)).toList
  marks := t.marks.filter (fun k => e.unmark ≠ some (k.caller, k.request)) ++
    if e.mark then (e.unmark.map fun a => (⟨a.1, a.2, t.next⟩ : Mark)).toList else []
  next := t.next + if e.draws then 1 else 0

/-- The effect of a call. -/
def rpcEff (t : Table) : Op → RpcEff
  | .addSession d => if d.sessionId.val ∈ t.known then {} else { join := some d.sessionId.val, out := fun _ => .ok .unit }
  | .removeSession s =>
    if s ∈ t.known then { leave := some s, drop := fun x => x.session = s, out := fun _ => .ok .unit } else {}
  | .hasRegistration p => { out := fun _ => .ok (.bool (t.held.any (·.procedure = p))) }
  | .receiveMessage s (.register m) =>
    if s ∈ t.known then
      if t.held.any (·.procedure = m.procedure) then
        { out := fun _ => .ok (.reply ⟨.error { messageType := .int 64, requestId := m.requestId,
                                                uri := "wamp.error.procedure_already_exists" }, s⟩) }
      else { reg := some (s, m.procedure), draws := true, out := fun i => .ok (.reply ⟨.registered ⟨m.requestId, .int i⟩, s⟩) }
    else {}
  | .receiveMessage s (.unregister m) =>
    if ∃ x ∈ t.held, x.session = s ∧ x.id = m.registrationId.val then
      { drop := fun x => x.session = s ∧ x.id = m.registrationId.val, out := fun _ => .ok (.reply ⟨.unregistered ⟨m.requestId⟩, s⟩) }
    else {}
  | .receiveMessage s (.call m) =>
    match t.held.find? (·.procedure = m.procedure) with
    | none => { out := fun _ => .ok (.reply ⟨.error { messageType := .int 48, requestId := m.requestId,
                                                      uri := "wamp.error.no_such_procedure" }, s⟩) }
    | some x =>
      match if PyDict.flag m.options "progress" then t.mark s m.requestId.val else none with
      | some k => { out := fun _ => .ok (.reply ⟨invocation m k.inv x.id, x.session⟩) }
      | none =>
        { call := some (s, m.requestId, x.session, PyDict.flag m.options "receive_progress")
          unmark := some (s, m.requestId.val), mark := true, draws := true
          out := fun i => .ok (.reply ⟨invocation m i x.id, x.session⟩) }
  | .receiveMessage s (.yield_ m) =>
    match t.pending.find? (·.inv = m.requestId.val) with
    | none => {}
    | some x =>
      if s ≠ x.callee then {}
      else if PyDict.flag m.options "progress" && x.wantsProgress then
        { out := fun _ => .ok (.reply ⟨.result { requestId := x.request, args := m.args, kwargs := m.kwargs,
                                                 details_ := [(.str "progress", (PyDict.get? m.options "progress").getD (.bool false))] },
                                  x.caller⟩) }
      else
        match t.mark x.caller x.request.val with
        | none => { close := some m.requestId.val, out := fun _ => .error .keyError }
        | some _ => { close := some m.requestId.val, unmark := some (x.caller, x.request.val)
                      out := fun _ => .ok (.reply ⟨.result { requestId := x.request, args := m.args, kwargs := m.kwargs }, x.caller⟩) }
  | .receiveMessage _ (.error m) =>
    match if m.messageType.val = 68 then t.pending.find? (·.inv = m.requestId.val) else none with
    | none => {}
    | some x => { close := some m.requestId.val
                  out := fun _ => .ok (.reply ⟨.error { messageType := .int 48, requestId := x.request, uri := m.uri, args := m.args,
                                                        kwargs := m.kwargs, details := m.details }, x.caller⟩) }
  | .receiveMessage _ _ => {}

theorem rpcEff_nil (t : Table) (o : Int → Except Failure Out) : ({ out := o } : RpcEff).on t = t := by
  cases t; simp [RpcEff.on]

theorem rpcEff_step (t : Table) (op : Op) : t.step op = ((rpcEff t op).on t, (rpcEff t op).out t.next) := by
  cases op with
  | addSession d =>
    by_cases h : d.sessionId.val ∈ t.known
    · simp only [Table.step, rpcEff, h, if_true, rpcEff_nil]
    · simp [Table.step, rpcEff, h, RpcEff.on, filter_all]
  | removeSession s =>
    by_cases h : s ∈ t.known
    · simp [Table.step, rpcEff, h, RpcEff.on, eq_comm, filter_all]
    · simp only [Table.step, rpcEff, h, if_false, rpcEff_nil]
  | hasRegistration q => exact congrArg (·, _) (rpcEff_nil t _).symm
  | receiveMessage s m =>
    cases m <;> try exact congrArg (·, _) (rpcEff_nil t _).symm
    case register m =>
      by_cases h : s ∈ t.known
      · by_cases h' : t.held.any (·.procedure = m.procedure) = true
        · simp only [Table.step, rpcEff, h, h', if_true, rpcEff_nil]
        · simp only [Table.step, rpcEff, h, if_true, if_neg h']; simp [RpcEff.on, filter_all]
      · simp only [Table.step, rpcEff, h, if_false, rpcEff_nil]
    case unregister m =>
      by_cases h : ∃ x ∈ t.held, x.session = s ∧ x.id = m.registrationId.val
      · simp only [Table.step, rpcEff, if_pos h]; simp [RpcEff.on, filter_all]
      · simp only [Table.step, rpcEff, if_neg h, rpcEff_nil]
    case call m =>
      cases hf : t.held.find? (·.procedure = m.procedure) with
      | none => simp only [Table.step, rpcEff, hf, rpcEff_nil]
      | some x =>
        simp only [Table.step, rpcEff, hf]
        cases hk : (if PyDict.flag m.options "progress" then t.mark s m.requestId.val else none : Option Mark) with
        | some k => simp only [rpcEff_nil]
        | none => simp [RpcEff.on, filter_all, Table.unmark, eq_comm (a := s), eq_comm (a := m.requestId.val)]
    case yield_ m =>
      cases hf : t.pending.find? (·.inv = m.requestId.val) with
      | none => simp only [Table.step, rpcEff, hf, rpcEff_nil]
      | some x =>
        simp only [Table.step, rpcEff, hf]
        by_cases h1 : s ≠ x.callee
        · simp only [if_pos h1, rpcEff_nil]
        · simp only [if_neg h1]
          by_cases h2 : (PyDict.flag m.options "progress" && x.wantsProgress) = true
          · simp only [if_pos h2, rpcEff_nil]
          · simp only [if_neg h2]
            cases hk : t.mark x.caller x.request.val with
            | none => simp [RpcEff.on, filter_all, eq_comm (a := m.requestId.val)]
            | some k =>
              simp [RpcEff.on, filter_all, Table.unmark, eq_comm (a := m.requestId.val), eq_comm (a := x.caller), eq_comm (a := x.request.val)]
    case error m =>
      simp only [Table.step, rpcEff]
      cases hf : (if m.messageType.val = 68 then t.pending.find? (·.inv = m.requestId.val) else none : Option Pending) with
      | none => simp only [rpcEff_nil]
      | some x => simp [RpcEff.on, filter_all, eq_comm (a := m.requestId.val)]

/-- The effect stays within what the call is about. -/
structure RpcWithin (t : Table) (op : Op) (e : RpcEff) : Prop where
  join : ∀ s, e.join = some s → rpcBy op = some s
  leave : ∀ s, e.leave = some s → rpcBy op = some s
  dropBy : ∀ x, e.drop x = true → rpcBy op = some x.session
  drop : ∀ x ∈ t.held, e.drop x = true → rpcWrites t.held op x.procedure
  reg : ∀ s p, e.reg = some (s, p) → rpcBy op = some s ∧ rpcWrites t.held op p ∧ e.draws = true
  close : ∀ i, e.close = some i → answers op = some i
  call : ∀ a, e.call = some a → e.draws = true ∧ ∃ m r c, e.out = fun i => .ok (.reply ⟨invocation m i r, c⟩)
  unmark : ∀ c q, e.unmark = some (c, q) → concerns t.pending op c q
  mark : e.mark = true → e.draws = true
  out : ∀ ρ : Int → Int, (∀ x ∈ t.held, ρ x.id = x.id) → (∀ k ∈ t.marks, ρ k.inv = k.inv) →
    ∀ i, (e.out i).map (rpcOutIds ρ) = e.out (ρ i)
  same : e.draws = false → ∀ i j, e.out i = e.out j

theorem rpcWithin_nil (t : Table) (op : Op) (o : Except Failure Out) (h : ∀ ρ : Int → Int, (∀ x ∈ t.held, ρ x.id = x.id) →
    (∀ k ∈ t.marks, ρ k.inv = k.inv) → o.map (rpcOutIds ρ) = o) : RpcWithin t op { out := fun _ => o } :=
  ⟨nofun, nofun, nofun, fun _ _ h => (by cases h), nofun, nofun, nofun, nofun, nofun, fun ρ h1 h2 _ => h ρ h1 h2, fun _ _ _ => rfl⟩

theorem rpcWithin_no (t : Table) (op : Op) : RpcWithin t op {} := rpcWithin_nil t op _ fun _ _ _ => rfl

theorem rpcWithin (t : Table) (op : Op) : RpcWithin t op (rpcEff t op) := by
  cases op with
  | addSession d =>
    simp only [rpcEff]
    split
    · exact rpcWithin_no t _
    · exact ⟨fun s h => (by simpa [rpcBy] using h), nofun, nofun, fun _ _ h => (by cases h), nofun, nofun, nofun, nofun, nofun,
        fun _ _ _ _ => rfl, fun _ _ _ => rfl⟩
  | removeSession s =>
    simp only [rpcEff]
    split
    · exact ⟨nofun, fun s h => (by simpa [rpcBy] using h), fun x h => (by simpa [rpcBy, eq_comm] using h),
        fun x hx h => ⟨x.id, (by have : x.session = s := by simpa using h
                                 rw [← this]; exact hx)⟩, nofun, nofun, nofun, nofun, nofun, fun _ _ _ _ => rfl, fun _ _ _ => rfl⟩
    · exact rpcWithin_no t _
  | hasRegistration q => exact rpcWithin_nil t _ _ fun _ _ _ => rfl
  | receiveMessage s m =>
    cases m <;> try exact rpcWithin_no t _
    case register m =>
      simp only [rpcEff]
      split
      · split
        · exact rpcWithin_nil t _ _ fun _ _ _ => (by simp [Except.map, rpcOutIds, sent, ids, PyInt.val])
        · refine ⟨nofun, nofun, nofun, fun _ _ h => (by cases h), ?_, nofun, nofun, nofun, nofun,
            fun ρ _ _ i => (by simp [Except.map, rpcOutIds, sent, ids, PyInt.val]), nofun⟩
          intro s' p h
          simp only [Option.some.injEq, Prod.mk.injEq] at h
          obtain ⟨rfl, rfl⟩ := h
          exact ⟨rfl, rfl, rfl⟩
      · exact rpcWithin_no t _
    case unregister m =>
      simp only [rpcEff]
      split
      · refine ⟨nofun, nofun, fun x h => ?_, fun x hx h => ?_, nofun, nofun, nofun, nofun, nofun, fun _ _ _ _ => rfl, fun _ _ _ => rfl⟩
        · have : x.session = s ∧ x.id = m.registrationId.val := by simpa using h
          simp [rpcBy, this.1]
        · have : x.session = s ∧ x.id = m.registrationId.val := by simpa using h
          show (⟨s, x.procedure, m.registrationId.val⟩ : Reg) ∈ t.held
          rw [← this.1, ← this.2]; exact hx
      · exact rpcWithin_no t _
    case call m =>
      simp only [rpcEff]
      cases hf : t.held.find? (·.procedure = m.procedure) with
      | none => exact rpcWithin_nil t _ _ fun _ _ _ => (by simp [Except.map, rpcOutIds, sent, ids, PyInt.val])
      | some x =>
        simp only
        cases hk : (if PyDict.flag m.options "progress" then t.mark s m.requestId.val else none : Option Mark) with
        | some k =>
          refine rpcWithin_nil t _ _ fun ρ h1 h2 => ?_
          have hk' : k ∈ t.marks := by
            split at hk
            · exact List.mem_of_find?_eq_some hk
            · cases hk
          simp [Except.map, rpcOutIds, sent, ids, invocation, PyInt.val, h1 x (List.mem_of_find?_eq_some hf), h2 k hk']
        | none =>
          refine ⟨nofun, nofun, nofun, fun _ _ h => (by cases h), nofun, nofun, fun _ _ => ⟨rfl, m, x.id, x.session, rfl⟩, ?_, fun _ => rfl, ?_, nofun⟩
          · intro c q h
            simp only [Option.some.injEq, Prod.mk.injEq] at h
            obtain ⟨rfl, rfl⟩ := h
            exact .inl ⟨m, rfl, rfl⟩
          · intro ρ h1 h2 i
            simp [Except.map, rpcOutIds, sent, ids, invocation, PyInt.val, h1 x (List.mem_of_find?_eq_some hf)]
    case yield_ m =>
      simp only [rpcEff]
      cases hf : t.pending.find? (·.inv = m.requestId.val) with
      | none => exact rpcWithin_no t _
      | some x =>
        have hi : x.inv = m.requestId.val := by simpa using List.find?_some hf
        simp only
        split
        · exact rpcWithin_no t _
        · split
          · exact rpcWithin_nil t _ _ fun _ _ _ => rfl
          · split
            · exact ⟨nofun, nofun, nofun, fun _ _ h => (by cases h), nofun, fun i h => h, nofun, nofun, nofun, fun _ _ _ _ => rfl, fun _ _ _ => rfl⟩
            · refine ⟨nofun, nofun, nofun, fun _ _ h => (by cases h), nofun, fun i h => h, nofun, ?_, nofun, fun _ _ _ _ => rfl, fun _ _ _ => rfl⟩
              intro c q h
              simp only [Option.some.injEq, Prod.mk.injEq] at h
              exact .inr ⟨x, List.mem_of_find?_eq_some hf, congrArg some hi.symm, h⟩
    case error m =>
      simp only [rpcEff]
      cases hf : (if m.messageType.val = 68 then t.pending.find? (·.inv = m.requestId.val) else none : Option Pending) with
      | none => exact rpcWithin_no t _
      | some x =>
        have h68 : m.messageType.val = 68 := by
          split at hf
          · assumption
          · cases hf
        refine ⟨nofun, nofun, nofun, fun _ _ h => (by cases h), nofun, fun i h => (by simpa [answers, h68] using h), nofun, nofun, nofun, ?_, fun _ _ _ => rfl⟩
        intro _ _ _ _
        simp [Except.map, rpcOutIds, sent, ids, PyInt.val]

theorem find_same {α : Type} {l l' : List α} {p : α → Bool} (hm : ∀ x, p x = true → (x ∈ l' ↔ x ∈ l))
    (hu : ∀ x ∈ l, ∀ y ∈ l, p x = true → p y = true → x = y) : l'.find? p = l.find? p := by
  cases h : l.find? p with
  | none =>
    rw [List.find?_eq_none] at h ⊢
    intro x hx hp
    exact h x ((hm x hp).1 hx) hp
  | some y =>
    have hy := List.mem_of_find?_eq_some h
    have hpy : p y = true := List.find?_some h
    cases h' : l'.find? p with
    | none => rw [List.find?_eq_none] at h'; exact absurd hpy (h' y ((hm y hpy).2 hy))
    | some z =>
      have hpz : p z = true := List.find?_some h'
      rw [hu z ((hm z hpz).1 (List.mem_of_find?_eq_some h')) y hy hpz hpy]

/-- The call has the same effect on a table that is the same as far as the call is concerned. -/
theorem rpcEff_stable {t t' : Table} (ok : RpcOk t) (a : Op) (hk : ∀ s, rpcBy a = some s → (s ∈ t'.known ↔ s ∈ t.known))
    (ho : ∀ x, rpcBy a = some x.session → (x ∈ t'.held ↔ x ∈ t.held))
    (hp : ∀ p, rpcWrites t.held a p ∨ rpcReads a p → ∀ x, x.procedure = p → (x ∈ t'.held ↔ x ∈ t.held))
    (hc : ∀ i, answers a = some i → ∀ x, x.inv = i → (x ∈ t'.pending ↔ x ∈ t.pending))
    (hm : ∀ c q, concerns t.pending a c q → t'.mark c q = t.mark c q) : rpcEff t' a = rpcEff t a := by
  have hfind : ∀ p, rpcWrites t.held a p ∨ rpcReads a p → t'.held.find? (·.procedure = p) = t.held.find? (·.procedure = p) := by
    intro p h
    exact find_same (fun x hx => hp p h x (by simpa using hx)) fun x hx y hy h1 h2 =>
      ok.procedure x hx y hy ((by simpa using h1 : x.procedure = p).trans (by simpa using h2 : y.procedure = p).symm)
  have hany : ∀ p, rpcWrites t.held a p ∨ rpcReads a p → t'.held.any (·.procedure = p) = t.held.any (·.procedure = p) := by
    intro p h; rw [← List.isSome_find?, ← List.isSome_find?, hfind p h]
  have hcall : ∀ i, answers a = some i → t'.pending.find? (·.inv = i) = t.pending.find? (·.inv = i) := by
    intro i h
    exact find_same (fun x hx => hc i h x (by simpa using hx)) fun x hx y hy h1 h2 =>
      ok.inv x hx y hy ((by simpa using h1 : x.inv = i).trans (by simpa using h2 : y.inv = i).symm)
  cases a with
  | addSession d => simp only [rpcEff, hk _ rfl]
  | removeSession s => simp only [rpcEff, hk _ rfl]
  | hasRegistration q => simp only [rpcEff, hany q (.inr rfl)]
  | receiveMessage s m =>
    cases m <;> try rfl
    case register m => simp only [rpcEff, hk _ rfl, hany m.procedure (.inl rfl)]
    case unregister m =>
      have : (∃ x ∈ t'.held, x.session = s ∧ x.id = m.registrationId.val) ↔ ∃ x ∈ t.held, x.session = s ∧ x.id = m.registrationId.val :=
        ⟨fun ⟨x, h1, h2, h3⟩ => ⟨x, (ho x (by rw [h2]; rfl)).1 h1, h2, h3⟩, fun ⟨x, h1, h2, h3⟩ => ⟨x, (ho x (by rw [h2]; rfl)).2 h1, h2, h3⟩⟩
      simp only [rpcEff, this]
    case call m => simp only [rpcEff, hfind m.procedure (.inr rfl), hm s m.requestId.val (.inl ⟨m, rfl, rfl⟩)]
    case yield_ m =>
      simp only [rpcEff, hcall _ rfl]
      cases hf : t.pending.find? (·.inv = m.requestId.val) with
      | none => rfl
      | some x =>
        have hi : x.inv = m.requestId.val := by simpa using List.find?_some hf
        simp only [hm x.caller x.request.val (.inr ⟨x, List.mem_of_find?_eq_some hf, congrArg some hi.symm, rfl, rfl⟩)]
    case error m =>
      by_cases h : m.messageType.val = 68
      · have := hcall m.requestId.val (by simp [answers, h])
        simp only [rpcEff, this]
      · simp only [rpcEff, if_neg h]

theorem rpc_known {t : Table} {op : Op} {e : RpcEff} (w : RpcWithin t op e) {s : Int} (hs : rpcBy op ≠ some s) :
    s ∈ (e.on t).known ↔ s ∈ t.known := by
  have h1 : e.join ≠ some s := fun h => hs (w.join s h)
  have h2 : e.leave ≠ some s := fun h => hs (w.leave s h)
  simp [RpcEff.on, h1, h2]

theorem rpc_own {t : Table} {op : Op} {e : RpcEff} (w : RpcWithin t op e) {x : Reg} (hs : rpcBy op ≠ some x.session) :
    x ∈ (e.on t).held ↔ x ∈ t.held := by
  have h1 : e.drop x = false := by
    cases h : e.drop x with
    | false => rfl
    | true => exact absurd (w.dropBy x h) hs
  simp only [RpcEff.on, List.mem_append, List.mem_filter, h1, Bool.not_false, and_true, Option.mem_toList, Option.map_eq_some_iff]
  refine ⟨fun h => h.elim id ?_, .inl⟩
  rintro ⟨⟨s, p⟩, ha, rfl⟩
  exact absurd (w.reg s p ha).1 hs

theorem rpc_procedure {t : Table} {op : Op} {e : RpcEff} (w : RpcWithin t op e) {x : Reg} (hp : ¬ rpcWrites t.held op x.procedure) :
    x ∈ (e.on t).held ↔ x ∈ t.held := by
  simp only [RpcEff.on, List.mem_append, List.mem_filter, Option.mem_toList, Option.map_eq_some_iff]
  constructor
  · rintro (h | ⟨⟨s, p⟩, ha, rfl⟩)
    · exact h.1
    · exact absurd (w.reg s p ha).2.1 hp
  · intro h
    refine .inl ⟨h, ?_⟩
    cases hd : e.drop x with
    | false => rfl
    | true => exact absurd (w.drop x h hd) hp

theorem rpc_mark (e : RpcEff) (t : Table) (c q : Int) :
    (e.on t).mark c q = if e.unmark = some (c, q) then (if e.mark then some ⟨c, q, t.next⟩ else none) else t.mark c q := by
  unfold Table.mark
  simp only [RpcEff.on, List.find?_append]
  have h1 : (t.marks.filter fun k => e.unmark ≠ some (k.caller, k.request)).find? (fun x => x.caller = c ∧ x.request = q) =
      if e.unmark = some (c, q) then none else t.marks.find? fun x => x.caller = c ∧ x.request = q := by
    rw [List.find?_filter]
    split
    · rename_i h
      rw [List.find?_eq_none]
      intro k hk hh
      simp only [decide_eq_true_eq, h, ne_eq, Option.some.injEq, Prod.mk.injEq] at hh
      exact hh.1 ⟨hh.2.1.symm, hh.2.2.symm⟩
    · rename_i h
      refine congrArg (fun f => List.find? f t.marks) (funext fun k => ?_)
      by_cases hk : k.caller = c ∧ k.request = q
      · simp [hk.1, hk.2, h]
      · simp [hk]
  rw [h1]
  split
  · rename_i h
    rw [h]
    cases e.mark <;> simp
  · rename_i h
    cases he : e.mark with
    | false => simp
    | true =>
      cases hu : e.unmark with
      | none => simp
      | some y =>
        obtain ⟨c', q'⟩ := y
        rw [hu] at h
        have : ¬ (c' = c ∧ q' = q) := fun hh => h (by rw [hh.1, hh.2])
        simp [this]

/-- `RpcUnrelated` of a table. -/
structure RpcApart (t : Table) (a b : Op) : Prop where
  sessions : ∀ s, rpcBy a = some s → rpcBy b ≠ some s
  both : ∀ p, rpcWrites t.held a p → ¬ rpcWrites t.held b p
  first : ∀ p, rpcWrites t.held a p → ¬ rpcReads b p
  second : ∀ p, rpcWrites t.held b p → ¬ rpcReads a p
  requests : ∀ c q, concerns t.pending a c q → ¬ concerns t.pending b c q
  answerB : ∀ i c, (t.step a).2 = .ok (.reply ⟨.invocation i, c⟩) → answers b ≠ some i.requestId.val
  answerA : ∀ i c, (t.step b).2 = .ok (.reply ⟨.invocation i, c⟩) → answers a ≠ some i.requestId.val

theorem RpcApart.symm {t : Table} {a b : Op} (h : RpcApart t a b) : RpcApart t b a :=
  ⟨fun s hb ha => h.sessions s ha hb, fun p hb ha => h.both p ha hb, h.second, h.first, fun c q hb ha => h.requests c q ha hb,
    h.answerA, h.answerB⟩

theorem RpcApart.fresh {t : Table} {a b : Op} (h : RpcApart t a b) (hc : (rpcEff t a).call.isSome = true) : answers b ≠ some t.next := by
  obtain ⟨y, hy⟩ := Option.isSome_iff_exists.1 hc
  obtain ⟨_, m, r, c, ho⟩ := (rpcWithin t a).call y hy
  have := h.answerB _ c (by rw [rpcEff_step, ho]; rfl)
  exact this

/-- The effect of a call is the same after another one that is unrelated. -/
theorem rpc_after {t : Table} {a b : Op} (ok : RpcOk t) (h : RpcApart t a b) : rpcEff ((rpcEff t b).on t) a = rpcEff t a := by
  have w := rpcWithin t b
  have hs : ∀ s, rpcBy a = some s → rpcBy b ≠ some s := h.sessions
  refine rpcEff_stable ok a (fun s e => rpc_known w (hs s e)) (fun x e => rpc_own w (hs _ e)) ?_ ?_ ?_
  · rintro p hp x rfl
    refine rpc_procedure w fun hb => ?_
    rcases hp with hp | hp
    · exact h.both _ hp hb
    · exact h.second _ hb hp
  · rintro i hi x rfl
    simp only [RpcEff.on, List.mem_append, List.mem_filter, Option.mem_toList, Option.map_eq_some_iff, decide_eq_true_eq]
    constructor
    · rintro (hx | ⟨y, hy, rfl⟩)
      · exact hx.1
      · exact absurd hi (h.symm.fresh (by rw [hy]; rfl))
    · intro hx
      refine .inl ⟨hx, fun hc => ?_⟩
      exact h.requests x.caller x.request.val (.inr ⟨x, hx, hi, rfl, rfl⟩) (.inr ⟨x, hx, w.close _ hc, rfl, rfl⟩)
  · intro c q hc
    rw [rpc_mark, if_neg fun hu => h.requests c q hc (w.unmark c q hu)]

/-- The members of a list from which both calls took and to which both added. -/
theorem two_lists {α : Type} {g : α → α} {l : List α} {da db : α → Bool} {xa xa' xb xb' : List α} (hold : ∀ x ∈ l, g x = x)
    (hba : ∀ x ∈ xa, db x = true) (hab : ∀ x ∈ xb', da x = true) (ha : xa' = xa.map g) (hb : xb' = xb.map g) (x' : α) :
    x' ∈ (l.filter db ++ xb').filter da ++ xa' ↔ ∃ x ∈ (l.filter da ++ xa).filter db ++ xb, x' = g x := by
  subst ha hb
  simp only [List.mem_append, List.mem_filter, List.mem_map]
  constructor
  · rintro (⟨⟨h1, h2⟩ | ⟨x, hx, rfl⟩, h3⟩ | ⟨x, hx, rfl⟩)
    · exact ⟨x', .inl ⟨.inl ⟨h1, h3⟩, h2⟩, (hold x' h1).symm⟩
    · exact ⟨x, .inr hx, rfl⟩
    · exact ⟨x, .inl ⟨.inr hx, hba x hx⟩, rfl⟩
  · rintro ⟨x, ⟨⟨h1, h2⟩ | hx, h3⟩ | hx, rfl⟩
    · rw [hold x h1]; exact .inl ⟨.inl ⟨h1, h3⟩, h2⟩
    · exact .inr ⟨x, hx, rfl⟩
    · exact .inl ⟨.inr ⟨x, hx, rfl⟩, hab _ (List.mem_map.2 ⟨x, hx, rfl⟩)⟩

/-- The two orders lead to tables that differ in nothing but ids. -/
theorem rpc_either {t : Table} {a b : Op} (ok : RpcOk t) (h : RpcApart t a b) :
    ∃ ρ, OneToOne ρ ∧ (∀ i, i ≠ t.next → i ≠ t.next + 1 → ρ i = i) ∧
      ((t.step b).1.step a).2 = (t.step a).2.map (rpcOutIds ρ) ∧
      (t.step b).2 = ((t.step a).1.step b).2.map (rpcOutIds ρ) ∧
      RpcRel ρ ((t.step a).1.step b).1 ((t.step b).1.step a).1 := by
  have wa := rpcWithin t a
  have wb := rpcWithin t b
  have ea := rpc_after ok h
  have eb := rpc_after ok h.symm
  have fa := h.fresh
  have fb := h.symm.fresh
  have hs := h.sessions
  have hr := h.requests
  simp only [rpcEff_step, ea, eb]
  generalize rpcEff t a = e at *
  generalize rpcEff t b = f at *
  have hold : ∀ i, i < t.next → exchange t.next e.draws f.draws i = i := fun i hi => exchange_old _ _ _ (by omega) (by omega)
  have hheld : ∀ x ∈ t.held, exchange t.next e.draws f.draws x.id = x.id := fun x hx => hold _ (ok.heldRange x hx).2
  have hmarks : ∀ k ∈ t.marks, exchange t.next e.draws f.draws k.inv = k.inv := fun k hk => hold _ (ok.usedRange _ (.inr ⟨k, hk, rfl⟩)).2
  refine ⟨exchange t.next e.draws f.draws, exchange_one _ _ _, fun i => exchange_old _ _ _, ?_, ?_, ?_, ?_, ?_, ?_, ?_⟩
  · rw [wa.out _ hheld hmarks]
    by_cases hd : e.draws = true
    · rw [exchange_a _ hd]; rfl
    · exact wa.same (by simpa using hd) _ _
  · rw [wb.out _ hheld hmarks]
    by_cases hd : f.draws = true
    · show _ = f.out (exchange _ _ _ (t.next + if e.draws then 1 else 0))
      rw [exchange_b _ hd]
    · exact wb.same (by simpa using hd) _ _
  · intro s
    have : e.join = some s ∨ e.leave = some s → ¬ (f.join = some s ∨ f.leave = some s) := fun h1 h2 =>
      hs s (h1.elim (wa.join s) (wa.leave s)) (h2.elim (wb.join s) (wb.leave s))
    simp only [RpcEff.on, List.mem_append, List.mem_filter, Option.mem_toList, decide_eq_true_eq, ne_eq]
    constructor
    · rintro ⟨⟨h1 | h1, h2⟩ | h1, h3⟩
      · exact ⟨.inl ⟨.inl h1, h3⟩, h2⟩
      · exact ⟨.inr h1, h2⟩
      · exact ⟨.inl ⟨.inr h1, h3⟩, fun h4 => this (.inr h4) (.inl h1)⟩
    · rintro ⟨⟨h1 | h1, h2⟩ | h1, h3⟩
      · exact ⟨.inl ⟨.inl h1, h3⟩, h2⟩
      · exact ⟨.inr h1, h2⟩
      · exact ⟨.inl ⟨.inr h1, h3⟩, fun h4 => this (.inl h1) (.inr h4)⟩
  · refine two_lists (fun x hx => by simp [renReg, hheld x hx]) ?_ ?_ ?_ ?_
    · intro x hx
      rw [Option.mem_toList, Option.map_eq_some_iff] at hx
      obtain ⟨⟨s, p⟩, hy, rfl⟩ := hx
      cases hd : f.drop ⟨s, p, t.next⟩ with
      | false => rfl
      | true => exact absurd (wb.dropBy _ hd) (hs s (wa.reg s p hy).1)
    · intro x hx
      rw [Option.mem_toList, Option.map_eq_some_iff] at hx
      obtain ⟨⟨s, p⟩, hy, rfl⟩ := hx
      cases hd : e.drop ⟨s, p, t.next⟩ with
      | false => rfl
      | true => exact absurd (wb.reg s p hy).1 (hs s (wa.dropBy _ hd))
    · cases hy : e.reg with
      | none => rfl
      | some y => simp [renReg, RpcEff.on, exchange_a f.draws (wa.reg y.1 y.2 hy).2.2]
    · cases hy : f.reg with
      | none => rfl
      | some y => simp [renReg, RpcEff.on, exchange_b e.draws (wb.reg y.1 y.2 hy).2.2]
  · refine two_lists (fun x hx => by simp [renCall, hold x.inv (ok.usedRange _ (.inl ⟨x, hx, rfl⟩)).2]) ?_ ?_ ?_ ?_
    · intro x hx
      rw [Option.mem_toList, Option.map_eq_some_iff] at hx
      obtain ⟨y, hy, rfl⟩ := hx
      simp only [decide_eq_true_eq, ne_eq]
      exact fun hc => fa (by rw [hy]; rfl) (wb.close _ hc)
    · intro x hx
      rw [Option.mem_toList, Option.map_eq_some_iff] at hx
      obtain ⟨y, hy, rfl⟩ := hx
      simp only [decide_eq_true_eq, ne_eq]
      exact fun hc => fb (by rw [hy]; rfl) (wa.close _ hc)
    · cases hy : e.call with
      | none => rfl
      | some y => simp [renCall, RpcEff.on, exchange_a f.draws (wa.call y hy).1]
    · cases hy : f.call with
      | none => rfl
      | some y => simp [renCall, RpcEff.on, exchange_b e.draws (wb.call y hy).1]
  · intro c q
    simp only [rpc_mark]
    by_cases hc : e.unmark = some (c, q)
    · have hd : f.unmark ≠ some (c, q) := fun hd => hr c q (wa.unmark c q hc) (wb.unmark c q hd)
      rw [if_pos hc, if_neg hd, if_pos hc]
      cases hm : e.mark with
      | false => rfl
      | true => simp [RpcEff.on, exchange_a f.draws (wa.mark hm)]
    · rw [if_neg hc, if_neg hc]
      by_cases hd : f.unmark = some (c, q)
      · rw [if_pos hd, if_pos hd]
        cases hm : f.mark with
        | false => rfl
        | true => simp [RpcEff.on, exchange_b e.draws (wb.mark hm)]
      · rw [if_neg hd, if_neg hd]
        cases hk : t.mark c q with
        | none => rfl
        | some k => simp [hmarks k (List.mem_of_find?_eq_some hk)]
  · intro i hi
    simp only [RpcEff.on] at hi ⊢
    have : exchange t.next e.draws f.draws i = i := by
      unfold exchange
      cases hd : e.draws <;> cases hd' : f.draws <;> try rfl
      rw [hd, hd'] at hi
      simp only [if_true] at hi
      simp only [Bool.and_true, if_true, swap]
      rw [if_neg (by omega), if_neg (by omega)]
    rw [this]; omega

theorem graded_ok {e : Except Exc Out} {o : Out} (h : graded e = some (.ok o)) : e = .ok o := by
  cases e with
  | ok x => simp only [graded, Option.some.injEq, Except.ok.injEq] at h; rw [h]
  | error x => cases x <;> simp [graded] at h

/-- Unrelated calls of the dealer's API may come in either order. -/
theorem C132_dealer (ops : List Op) (a b : Op) (hl : ops.length + 2 ≤ 2 ^ 53) (h : RpcUnrelated ops a b) : RpcEither ops a b := by
  have ht := Dealer.sim_after ops (by omega)
  have hap : RpcApart (tableAfter ops) a b := by
    refine ⟨h.sessions, ?_, ?_, ?_, ?_, ?_, ?_⟩
    · rw [ht.held]; exact h.both
    · rw [ht.held]; exact h.first
    · rw [ht.held]; exact h.second
    · rw [ht.pending]; exact h.requests
    · exact fun i c hi => h.answerB i c (graded_ok (by rw [rpc_step_eq ops (by omega), hi]))
    · exact fun i c hi => h.answerA i c (graded_ok (by rw [rpc_step_eq ops (by omega), hi]))
  obtain ⟨ρ, h1, h2, h3, h4, h5⟩ := rpc_either (rpcOk_after ops) hap
  refine ⟨ρ, h1, ?_, ?_, ?_, ?_⟩
  · intro i hi hi'
    exact h2 i (by rw [ht.next]; exact hi) (by rw [ht.next]; omega)
  · rw [ended_eq, ended_eq, rpc_step_eq _ (by simp; omega), rpc_step_eq _ (by omega), rpc_table_snoc, h3]; rfl
  · rw [ended_eq, ended_eq, rpc_step_eq _ (by omega), rpc_step_eq _ (by simp; omega), rpc_table_snoc, h4]; rfl
  · intro later hb
    have e1 : ∀ x y : Op, (ops ++ [x, y]).length = ops.length + 2 := fun x y => by simp
    have e2 : ∀ x y : Op, tableAfter (ops ++ [x, y]) = (((tableAfter ops).step x).1.step y).1 := by
      intro x y
      rw [← rpc_table_snoc, ← rpc_table_snoc, List.append_assoc]; rfl
    have f1 := rpc_from (ops ++ [b, a]) (later.map (rpcIds ρ)) (by rw [List.length_append, List.length_map, e1]; exact hb)
    have f2 := rpc_from (ops ++ [a, b]) later (by rw [List.length_append, e1]; exact hb)
    rw [e1] at f1 f2
    rw [f1, e2, rpcRel_run h1 later (by rw [← e2]; exact rpcOk_after _) h5]
    rw [e2] at f2
    have e3 := congrArg (List.map (Option.map (Except.map (rpcOutIds ρ)))) f2
    rw [List.map_map, List.map_map] at e3
    rw [List.map_map]
    exact e3.symm

end

/-! ## Where the order matters -/

section
open Wamp.Spec.Pub (Table Holding subscribersOf)
open Wamp.Broker (Op Out tableAfter)

theorem subscribes {t : Table} {s : Int} {m : Subscribe} (hk : s ∈ t.known) (hs : s ∉ subscribersOf t.held m.topic) :
    ∃ i, (t.step (.receiveMessage s (.subscribe m))).1.held = t.held ++ [⟨s, m.topic, i⟩] ∧
      (t.step (.receiveMessage s (.subscribe m))).1.known = t.known := by
  cases hf : t.held.find? (·.topic = m.topic) with
  | none => exact ⟨t.next, by simp [Table.step, hk, hf], by simp [Table.step, hk, hf]⟩
  | some x => exact ⟨x.id, by simp [Table.step, hk, hf, hs], by simp [Table.step, hk, hf]⟩

theorem subs_snoc (l : List Holding) (s : Int) (p : String) (i : Int) : subscribersOf (l ++ [⟨s, p, i⟩]) p = subscribersOf l p ++ [s] := by
  simp [subscribersOf]

/-- Two sessions that subscribe to the same topic: which came first is visible for ever after, in the order of the recipients. -/
theorem C132_same_topic (ops : List Op) (hl : ops.length + 3 ≤ 2 ^ 53) {s s' : Int} (hne : s ≠ s') (m m' : Subscribe) (ht : m.topic = m'.topic)
    (hk : s ∈ (Pub.view (Broker.trace ops)).known) (hk' : s' ∈ (Pub.view (Broker.trace ops)).known)
    (hs : s ∉ (Pub.view (Broker.trace ops)).subscribers m.topic) (hs' : s' ∉ (Pub.view (Broker.trace ops)).subscribers m.topic) :
    ¬ PubEither ops (.receiveMessage s (.subscribe m)) (.receiveMessage s' (.subscribe m')) := by
  rintro ⟨ρ, -, -, -, -, h⟩
  have hv := Broker.tableAfter_eq ops (by omega)
  have e0 : (tableAfter ops).known = (Pub.view (Broker.trace ops)).known := by rw [hv]
  have e0' : ∀ p, subscribersOf (tableAfter ops).held p = (Pub.view (Broker.trace ops)).subscribers p := by intro p; rw [hv]; rfl
  rw [← e0] at hk hk'
  rw [← e0'] at hs hs'
  let pub : Op := .receivePublish s { requestId := .int 1, topic := m.topic }
  have h := h [pub] hl
  have e1 : ∀ x y : Op, (ops ++ [x, y]).length = ops.length + 2 := fun x y => by simp
  have e2 : ∀ x y : Op, tableAfter (ops ++ [x, y]) = (((tableAfter ops).step x).1.step y).1 := by
    intro x y
    rw [← pub_table_snoc, ← pub_table_snoc, List.append_assoc]; rfl
  have hr : ∀ (t : Table), s ∈ t.known → ∃ ev ack, (t.step pub).2 = some (.publication { recipients := subscribersOf t.held m.topic, event := ev, ack := ack }) :=
    fun t h => ⟨_, _, by simp only [pub, Table.step, if_pos h]; rfl⟩
  have key : ∀ (x y : Op), ((Broker.trace (ops ++ [x, y] ++ [pub])).drop (ops.length + 2)).map (·.2.toOption) =
      [((((tableAfter ops).step x).1.step y).1.step pub).2] := by
    intro x y
    have := pub_from (ops ++ [x, y]) [pub] (by rw [List.length_append, e1]; exact hl)
    rw [e1, e2] at this
    exact this
  obtain ⟨i, g1, g2⟩ := subscribes hk hs
  obtain ⟨i', g1', g2'⟩ := subscribes (m := m') hk' (by rw [← ht]; exact hs')
  have n1 : s' ∉ subscribersOf ((tableAfter ops).step (.receiveMessage s (.subscribe m))).1.held m'.topic := by
    rw [g1, ← ht, subs_snoc]; simpa [hs'] using fun e => hne e.symm
  have n1' : s ∉ subscribersOf ((tableAfter ops).step (.receiveMessage s' (.subscribe m'))).1.held m.topic := by
    rw [g1', ← ht, subs_snoc]; simpa [hs] using hne
  obtain ⟨j, k1, k2⟩ := subscribes (m := m') (by rw [g2]; exact hk') n1
  obtain ⟨j', k1', k2'⟩ := subscribes (m := m) (by rw [g2']; exact hk) n1'
  have q : ∀ l : List Broker.Obs, (l.map fun e => e.2.toOption.map (pubOutIds ρ)) = (l.map (·.2.toOption)).map (·.map (pubOutIds ρ)) := by
    intro l; rw [List.map_map]; rfl
  rw [show [pub].map (pubIds ρ) = [pub] from rfl, q, key, key] at h
  obtain ⟨ev, ack, o⟩ := hr _ (by rw [k2, g2]; exact hk : s ∈ (((tableAfter ops).step (.receiveMessage s (.subscribe m))).1.step (.receiveMessage s' (.subscribe m'))).1.known)
  obtain ⟨ev', ack', o'⟩ := hr _ (by rw [k2', g2']; exact hk : s ∈ (((tableAfter ops).step (.receiveMessage s' (.subscribe m'))).1.step (.receiveMessage s (.subscribe m))).1.known)
  rw [o, o'] at h
  simp only [List.map_cons, List.map_nil, Option.map_some, pubOutIds, List.cons.injEq, and_true, Option.some.injEq, Out.publication.injEq,
    Publication.mk.injEq] at h
  have h := h.2.1
  rw [k1, k1', g1, g1', ← ht, subs_snoc, subs_snoc, subs_snoc, subs_snoc, List.append_assoc, List.append_assoc] at h
  have := List.append_cancel_left h
  simp at this
  exact hne this.1.symm

/-- Two sessions that subscribe to different topics. -/
def two : List Op := [.addSession { sessionId := .int 1, realm := "r" }, .addSession { sessionId := .int 2, realm := "r" }]

example : PubEither two (sub 1 "t") (sub 2 "v") :=
  C132_broker _ _ _ (by decide) ⟨by simp [sub, pubBy], by rintro p rfl; simp [sub, pubWrites], by simp [sub, pubReads], by simp [sub, pubReads]⟩

/-- Two publications to one topic, and one who leaves who did not subscribe to it. -/
example : PubEither plain (.receivePublish 1 { requestId := .int 3, topic := "t" }) (.receivePublish 2 { requestId := .int 3, topic := "t" }) :=
  C132_broker _ _ _ (by decide) ⟨by simp [pubBy], by simp [pubWrites], by simp [pubWrites], by simp [pubWrites]⟩

example : PubEither plain (.removeSession 1) (.receivePublish 2 { requestId := .int 3, topic := "v" }) := by
  have h1 : (Pub.view (Broker.trace plain)).held = [⟨1, "t", 1⟩, ⟨2, "t", 1⟩, ⟨2, "v", 2⟩] := by decide +kernel
  refine C132_broker _ _ _ (by decide) ⟨by simp [pubBy], by simp [pubWrites], ?_, by simp [pubWrites]⟩
  rw [h1]
  rintro p ⟨i, hi⟩ rfl
  simp at hi

example : ¬ PubEither two (sub 1 "t") (sub 2 "t") :=
  C132_same_topic two (by decide) (by decide) _ _ rfl (by decide +kernel) (by decide +kernel) (by decide +kernel) (by decide +kernel)

end

section
open Wamp.Spec.Rpc (Table)
open Wamp.Dealer (Op Out tableAfter)

/-- Two sessions that register the same procedure: the first has it. -/
theorem C132_same_procedure (ops : List Op) (hl : ops.length + 2 ≤ 2 ^ 53) {s s' : Int} (m m' : Register) (hp : m.procedure = m'.procedure)
    (hk : s ∈ (Rpc.view (Dealer.trace ops)).known) (hk' : s' ∈ (Rpc.view (Dealer.trace ops)).known)
    (hf : ∀ x ∈ (Rpc.view (Dealer.trace ops)).held, x.procedure ≠ m.procedure) :
    ¬ RpcEither ops (.receiveMessage s (.register m)) (.receiveMessage s' (.register m')) := by
  rintro ⟨ρ, -, -, -, h, -⟩
  have ht := Dealer.sim_after ops (by omega)
  rw [← ht.known] at hk hk'
  rw [← ht.held] at hf
  have h0 : (tableAfter ops).held.any (fun x => decide (x.procedure = m'.procedure)) = false := by
    rw [List.any_eq_false]
    intro x hx; rw [← hp]; simpa using hf x hx
  rw [ended_eq, ended_eq, rpc_step_eq _ (by omega), rpc_step_eq _ (by simp; omega), rpc_table_snoc] at h
  simp only [Table.step, if_pos hk, if_pos hk', hp, h0] at h
  simp [hk', Except.map, rpcOutIds, sent, ids] at h

/-- Two callers of one procedure. -/
example : RpcEither quiet (.receiveMessage 1 (.call { requestId := .int 3, procedure := "p" }))
    (.receiveMessage 2 (.call { requestId := .int 9, procedure := "p" })) := by
  refine C132_dealer _ _ _ (by decide) ⟨by simp [rpcBy], by simp [rpcWrites], by simp [rpcWrites], by simp [rpcWrites], ?_,
    by simp [answers], by simp [answers]⟩
  rintro c q (⟨m, h, -⟩ | ⟨x, -, h, -⟩) (⟨m', h', -⟩ | ⟨x', -, h', -⟩)
  · simp only [Op.receiveMessage.injEq] at h h'; omega
  all_goals simp [answers] at *

/-- A call, and the answer to another one. -/
example : RpcEither quiet (.receiveMessage 2 (.call { requestId := .int 9, procedure := "p" })) (.receiveMessage 1 (.yield_ { requestId := .int 2 })) := by
  have h1 : (Rpc.view (Dealer.trace quiet)).pending = [⟨2, 2, .int 7, 1, false⟩] := by decide +kernel
  refine C132_dealer _ _ _ (by decide) ⟨by simp [rpcBy], by simp [rpcWrites], by simp [rpcWrites], by simp [rpcWrites], ?_, ?_,
    by simp [answers]⟩
  · rw [h1]
    rintro c q (⟨m, h, hq⟩ | ⟨x, -, h, -⟩) (⟨m', h', -⟩ | ⟨x', hx', h', hc', hq'⟩)
    · simp at h'
    · simp only [Op.receiveMessage.injEq, Message.call.injEq] at h
      simp only [List.mem_singleton] at hx'
      subst hx'
      rw [← h.2] at hq
      simp only [PyInt.val] at hq hq'
      omega
    all_goals simp [answers] at *
  · intro i c hi
    have : Dealer.outcome quiet (.receiveMessage 2 (.call { requestId := .int 9, procedure := "p" })) =
      .ok (.reply ⟨.invocation { requestId := .int 3, registrationId := .int 1 }, 1⟩) := by rfl
    rw [this] at hi
    simp only [Except.ok.injEq, Out.reply.injEq, MessageWithRecipient.mk.injEq, Message.invocation.injEq] at hi
    rw [← hi.1]; decide

example : ¬ RpcEither quiet (.receiveMessage 1 (.register { requestId := .int 3, procedure := "q" }))
    (.receiveMessage 2 (.register { requestId := .int 3, procedure := "q" })) :=
  C132_same_procedure quiet (by decide) _ _ rfl (by decide +kernel) (by decide +kernel) (by decide +kernel)

end

end Wamp.Spec.Unrelated
