import Verif.Spec.Renaming
import Verif.Proofs.DictLemmas

/-! # Renaming commutes with everything the broker does -/

namespace Wamp
open Wamp.Spec.Naming

namespace Dict
variable {K V K' V' : Type} [DecidableEq K] [DecidableEq K']

/-- The dict with other keys and values. -/
def mapKV (f : K → K') (h : V → V') (d : Dict K V) : Dict K' V' := ⟨d.items.map fun kv => (f kv.1, h kv.2)⟩

variable {f : K → K'} {h : V → V'}

omit [DecidableEq K] [DecidableEq K'] in
@[simp] theorem mapKV_empty : (empty : Dict K V).mapKV f h = empty := rfl

theorem lookupL_map (hf : OneToOne f) (l : List (K × V)) (k : K) :
    lookupL (l.map fun kv => (f kv.1, h kv.2)) (f k) = (lookupL l k).map h := by
  induction l with
  | nil => rfl
  | cons x l ih =>
    simp only [List.map_cons, lookupL]
    by_cases hx : x.1 = k
    · simp [hx]
    · rw [if_neg hx, if_neg (fun e => hx (hf _ _ e)), ih]

theorem setL_map (hf : OneToOne f) (l : List (K × V)) (k : K) (v : V) :
    setL (l.map fun kv => (f kv.1, h kv.2)) (f k) (h v) = (setL l k v).map fun kv => (f kv.1, h kv.2) := by
  induction l with
  | nil => rfl
  | cons x l ih =>
    simp only [List.map_cons, setL]
    by_cases hx : x.1 = k
    · simp [hx]
    · rw [if_neg hx, if_neg (fun e => hx (hf _ _ e)), ih]; rfl

theorem get_mapKV (hf : OneToOne f) (d : Dict K V) (k : K) : (d.mapKV f h).get (f k) = (d.get k).map h :=
  lookupL_map hf d.items k

theorem contains_mapKV (hf : OneToOne f) (d : Dict K V) (k : K) : (d.mapKV f h).contains (f k) = d.contains k := by
  simp [contains, get_mapKV hf]

theorem set_mapKV (hf : OneToOne f) (d : Dict K V) (k : K) (v : V) :
    (d.mapKV f h).set (f k) (h v) = (d.set k v).mapKV f h := by
  simp only [set, mapKV, setL_map hf]

theorem del_mapKV (hf : OneToOne f) (d : Dict K V) (k : K) : (d.mapKV f h).del (f k) = (d.del k).mapKV f h := by
  simp only [del, mapKV, List.filter_map]
  congr 2
  apply List.filter_congr
  intro x _
  simp only [Function.comp_apply, ne_eq, decide_not, Bool.not_eq_eq_eq_not, Bool.not_not, decide_eq_decide]
  exact ⟨fun e => hf _ _ e, fun e => by rw [e]⟩

omit [DecidableEq K] [DecidableEq K'] in
theorem keys_mapKV (d : Dict K V) : (d.mapKV f h).keys = d.keys.map f := by simp [keys, mapKV]
omit [DecidableEq K] [DecidableEq K'] in
theorem size_mapKV (d : Dict K V) : (d.mapKV f h).size = d.size := by simp [size, mapKV]

end Dict

/-! ## The broker -/

namespace Broker
variable {f : Int → Int} {g : String → String}

/-- A subscription object by another name. -/
def Sub.rename (f : Int → Int) (g : String → String) (o : Subscription) : Subscription :=
  ⟨o.id, g o.topic, o.subscribers.mapKV f f⟩

/-- Two brokers that differ in names only. -/
structure Renamed (f : Int → Int) (g : String → String) (b b' : Broker) : Prop where
  next : b'.nextRef = b.nextRef
  heap : ∀ r, r < b.nextRef → b'.heap r = Sub.rename f g (b.heap r)
  topic : b'.subscriptionsByTopic = b.subscriptionsByTopic.mapKV g id
  ses : b'.subscriptionsBySession = b.subscriptionsBySession.mapKV f id
  sessions : b'.sessions = b.sessions.mapKV f (details f)
  idgen : b'.idgen = b.idgen
  okTopic : ∀ t r, b.subscriptionsByTopic.get t = some r → r < b.nextRef
  okSes : ∀ s d, b.subscriptionsBySession.get s = some d → ∀ i r, d.get i = some r → r < b.nextRef
  wfSes : ∀ s d, b.subscriptionsBySession.get s = some d → d.Wf

theorem renamed_init : Renamed f g init init := by
  refine ⟨rfl, ?_, rfl, rfl, rfl, rfl, ?_, ?_, ?_⟩ <;> simp [init]

variable {b b' : Broker}

theorem Renamed.getTopic (h : Renamed f g b b') (hg : OneToOne g) (t : String) :
    b'.subscriptionsByTopic.get (g t) = b.subscriptionsByTopic.get t := by
  rw [h.topic, Dict.get_mapKV hg]; simp
theorem Renamed.getSes (h : Renamed f g b b') (hf : OneToOne f) (s : Int) :
    b'.subscriptionsBySession.get (f s) = b.subscriptionsBySession.get s := by
  rw [h.ses, Dict.get_mapKV hf]; simp

theorem Renamed.write (h : Renamed f g b b') (r : Ref) (o : Subscription) :
    Renamed f g (b.write r o) (b'.write r (Sub.rename f g o)) := by
  refine ⟨h.next, ?_, h.topic, h.ses, h.sessions, h.idgen, h.okTopic, h.okSes, h.wfSes⟩
  intro r' hr'
  simp only [Broker.write]
  split
  · rfl
  · exact h.heap r' hr'

theorem Renamed.delTopic (h : Renamed f g b b') (hg : OneToOne g) (t : String) :
    Renamed f g { b with subscriptionsByTopic := b.subscriptionsByTopic.del t }
      { b' with subscriptionsByTopic := b'.subscriptionsByTopic.del (g t) } := by
  refine ⟨h.next, h.heap, ?_, h.ses, h.sessions, h.idgen, ?_, h.okSes, h.wfSes⟩
  · simp only [h.topic, Dict.del_mapKV hg]
  · intro t' r hr
    simp only [Dict.get_del] at hr
    split at hr
    · cases hr
    · exact h.okTopic _ _ hr

theorem Renamed.setSes (h : Renamed f g b b') (hf : OneToOne f) (s : Int) (d : Dict Int Ref) (hd : d.Wf)
    (hr : ∀ i r, d.get i = some r → r < b.nextRef) :
    Renamed f g { b with subscriptionsBySession := b.subscriptionsBySession.set s d }
      { b' with subscriptionsBySession := b'.subscriptionsBySession.set (f s) d } := by
  refine ⟨h.next, h.heap, h.topic, ?_, h.sessions, h.idgen, h.okTopic, ?_, ?_⟩
  · simp only [h.ses]; exact Dict.set_mapKV (h := id) hf _ s d
  · intro s' d' hd'
    simp only [Dict.get_set] at hd'
    split at hd'
    · cases hd'; exact hr
    · exact h.okSes _ _ hd'
  · intro s' d' hd'
    simp only [Dict.get_set] at hd'
    split at hd'
    · cases hd'; exact hd
    · exact h.wfSes _ _ hd'

theorem Renamed.delSes (h : Renamed f g b b') (hf : OneToOne f) (s : Int) :
    Renamed f g { b with subscriptionsBySession := b.subscriptionsBySession.del s }
      { b' with subscriptionsBySession := b'.subscriptionsBySession.del (f s) } := by
  refine ⟨h.next, h.heap, h.topic, ?_, h.sessions, h.idgen, h.okTopic, ?_, ?_⟩
  · simp only [h.ses, Dict.del_mapKV hf]
  · intro s' d' hd'
    simp only [Dict.get_del] at hd'
    split at hd'
    · cases hd'
    · exact h.okSes _ _ hd'
  · intro s' d' hd'
    simp only [Dict.get_del] at hd'
    split at hd'
    · cases hd'
    · exact h.wfSes _ _ hd'

theorem alike_refl {α : Type} (r : Except Exc α) : Alike id r r := by
  cases r with
  | ok a => rfl
  | error e => exact .inl rfl

theorem contains_sub (hf : OneToOne f) (o : Subscription) (s : Int) :
    (Sub.rename f g o).subscribers.contains (f s) = o.subscribers.contains s := Dict.contains_mapKV hf _ _

theorem renamed_removeLoop (hf : OneToOne f) (hg : OneToOne g) (s : Int) (l : List (Int × Ref)) :
    ∀ b b' : Broker, Renamed f g b b' → (∀ x ∈ l, x.2 < b.nextRef) →
      Renamed f g (b.removeLoop s l).1 (b'.removeLoop (f s) l).1 ∧
      (b'.removeLoop (f s) l).2 = (b.removeLoop s l).2 := by
  induction l with
  | nil => intro b b' h _; exact ⟨h, rfl⟩
  | cons x l ih =>
    obtain ⟨i, sub⟩ := x
    intro b b' h hl
    have hs : sub < b.nextRef := hl (i, sub) (by simp)
    have ht : (b'.heap sub).topic = g (b.heap sub).topic := by rw [h.heap sub hs]; rfl
    simp only [removeLoop, ht, h.getTopic hg]
    cases hr : b.subscriptionsByTopic.get (b.heap sub).topic with
    | none => exact ⟨h, rfl⟩
    | some r =>
      have hrn := h.okTopic _ _ hr
      have ho : (if (b'.heap r).subscribers.contains (f s) = true then
            { b'.heap r with subscribers := (b'.heap r).subscribers.del (f s) } else b'.heap r) =
          Sub.rename f g (if (b.heap r).subscribers.contains s = true then
            { b.heap r with subscribers := (b.heap r).subscribers.del s } else b.heap r) := by
        rw [h.heap r hrn, contains_sub hf]
        split
        · simp only [Sub.rename, Dict.del_mapKV hf]
        · rfl
      simp only [ho]
      generalize (if (b.heap r).subscribers.contains s = true then
            { b.heap r with subscribers := (b.heap r).subscribers.del s } else b.heap r) = o
      have hw := h.write r o
      have hz : (Sub.rename f g o).subscribers.size = o.subscribers.size := Dict.size_mapKV _
      have hc : (b'.write r (Sub.rename f g o)).subscriptionsByTopic.contains (Sub.rename f g o).topic =
          (b.write r o).subscriptionsByTopic.contains o.topic := by
        rw [hw.topic]; exact Dict.contains_mapKV hg _ _
      rw [hz, hc]
      split
      · exact ⟨hw, rfl⟩
      · split
        · exact ih _ _ (hw.delTopic hg o.topic) (fun x hx => hl x (List.mem_cons_of_mem _ hx))
        · exact ih _ _ hw (fun x hx => hl x (List.mem_cons_of_mem _ hx))

theorem renamed_removeSession (hf : OneToOne f) (hg : OneToOne g) (h : Renamed f g b b') (s : Int) :
    Renamed f g (b.removeSession s).1 (b'.removeSession (f s)).1 ∧ (b'.removeSession (f s)).2 = (b.removeSession s).2 := by
  simp only [removeSession, h.getSes hf]
  cases hd : b.subscriptionsBySession.get s with
  | none => exact ⟨h, rfl⟩
  | some d =>
    have hw := h.wfSes s d hd
    obtain ⟨h1, h2⟩ := renamed_removeLoop hf hg s d.items _ _ (h.delSes hf s)
      (fun x hx => h.okSes s d hd x.1 x.2 (hw.mem_items.1 hx))
    simp only
    generalize ({ b with subscriptionsBySession := b.subscriptionsBySession.del s } : Broker).removeLoop s d.items = q at h1 h2
    generalize ({ b' with subscriptionsBySession := b'.subscriptionsBySession.del (f s) } : Broker).removeLoop (f s) d.items = q' at h1 h2
    obtain ⟨b1, r1⟩ := q
    obtain ⟨b2, r2⟩ := q'
    simp only at h1 h2
    subst h2
    cases r2 with
    | error e => exact ⟨h1, rfl⟩
    | ok u =>
      simp only [h1.sessions, Dict.contains_mapKV hf]
      split
      · refine ⟨⟨h1.next, h1.heap, h1.topic, h1.ses, ?_, h1.idgen, h1.okTopic, h1.okSes, h1.wfSes⟩, rfl⟩
        simp only [Dict.del_mapKV hf]
      · exact ⟨h1, rfl⟩

theorem renamed_addSession (hf : OneToOne f) (h : Renamed f g b b') (d : SessionDetails) :
    Renamed f g (b.addSession d).1 (b'.addSession (details f d)).1 ∧ (b'.addSession (details f d)).2 = (b.addSession d).2 := by
  have hk : (details f d).sessionId.val = f d.sessionId.val := rfl
  have hc : b'.subscriptionsBySession.contains (f d.sessionId.val) = b.subscriptionsBySession.contains d.sessionId.val := by
    rw [h.ses, Dict.contains_mapKV hf]
  simp only [addSession, hk, hc]
  split
  · exact ⟨h, rfl⟩
  · have h1 := h.setSes hf d.sessionId.val .empty Dict.wf_empty (by simp)
    refine ⟨⟨h1.next, h1.heap, h1.topic, h1.ses, ?_, h1.idgen, h1.okTopic, h1.okSes, h1.wfSes⟩, rfl⟩
    simp only [h.sessions, Dict.set_mapKV hf]

theorem renamed_subscribe (hf : OneToOne f) (hg : OneToOne g) (h : Renamed f g b b') (s : Int) (m : Subscribe) :
    Renamed f g (b.receiveSubscribe s m).1 (b'.receiveSubscribe (f s) { m with topic := g m.topic }).1 ∧
    Alike (sent f) (b.receiveSubscribe s m).2 (b'.receiveSubscribe (f s) { m with topic := g m.topic }).2 := by
  simp only [receiveSubscribe, h.getSes hf, h.getTopic hg]
  cases hd : b.subscriptionsBySession.get s with
  | none => exact ⟨h, .inr ⟨_, _, rfl, rfl⟩⟩
  | some d =>
    simp only
    cases ht : b.subscriptionsByTopic.get m.topic with
    | some r =>
      have hr := h.okTopic _ _ ht
      have ho : { b'.heap r with subscribers := (b'.heap r).subscribers.set (f s) (f s) } =
          Sub.rename f g { b.heap r with subscribers := (b.heap r).subscribers.set s s } := by
        rw [h.heap r hr]; simp only [Sub.rename, Dict.set_mapKV hf]
      simp only [ho]
      generalize hoo : ({ b.heap r with subscribers := (b.heap r).subscribers.set s s } : Subscription) = o
      have hw := h.write r o
      have hn : b.nextRef = (b.write r o).nextRef := rfl
      rw [hw.getSes hf]
      have hd' : (b.write r o).subscriptionsBySession.get s = some d := hd
      have hid : ((b'.write r (Sub.rename f g o)).heap r).id = ((b.write r o).heap r).id := by
        simp [write, Sub.rename]
      simp only [hd', hid]
      refine ⟨hw.setSes hf s _ ((h.wfSes s d hd).set _ _) ?_, rfl⟩
      intro i r' hi
      simp only [Dict.get_set] at hi
      split at hi
      · cases hi; exact hr
      · exact h.okSes s d hd _ _ hi
    | none =>
      simp only [h.idgen, alloc, h.next]
      rw [h.ses, Dict.get_mapKV hf, hd]
      simp only [Option.map_some, id_eq, if_true]
      refine ⟨⟨rfl, ?_, ?_, ?_, h.sessions, rfl, ?_, ?_, ?_⟩, rfl⟩
      · intro r' hr'
        simp only at hr' ⊢
        split
        · simp only [Sub.rename, ← Dict.set_mapKV hf, Dict.mapKV_empty]
        · rename_i hne; exact h.heap r' (Nat.lt_of_le_of_ne (Nat.le_of_lt_succ hr') hne)
      · simp only [h.topic]; exact Dict.set_mapKV (h := id) hg _ m.topic b.nextRef
      · exact Dict.set_mapKV (h := id) hf _ s _
      · intro t r' hr'
        simp only [Dict.get_set] at hr' ⊢
        split at hr'
        · cases hr'; exact Nat.lt_succ_self _
        · exact Nat.lt_succ_of_lt (h.okTopic _ _ hr')
      · intro s' d' hd'
        simp only [Dict.get_set] at hd' ⊢
        intro i r' hi
        split at hd'
        · cases hd'
          simp only [Dict.get_set] at hi
          split at hi
          · cases hi; exact Nat.lt_succ_self _
          · exact Nat.lt_succ_of_lt (h.okSes s d hd _ _ hi)
        · exact Nat.lt_succ_of_lt (h.okSes _ _ hd' _ _ hi)
      · intro s' d' hd'
        simp only [Dict.get_set] at hd'
        split at hd'
        · cases hd'; exact (h.wfSes s d hd).set _ _
        · exact h.wfSes _ _ hd'

theorem renamed_unsubscribe (hf : OneToOne f) (hg : OneToOne g) (h : Renamed f g b b') (s : Int) (m : Unsubscribe) :
    Renamed f g (b.receiveUnsubscribe s m).1 (b'.receiveUnsubscribe (f s) m).1 ∧
    Alike (sent f) (b.receiveUnsubscribe s m).2 (b'.receiveUnsubscribe (f s) m).2 := by
  simp only [receiveUnsubscribe, h.getSes hf]
  cases hd : b.subscriptionsBySession.get s with
  | none => exact ⟨h, .inr ⟨_, _, rfl, rfl⟩⟩
  | some d =>
    simp only
    cases hi : d.get m.subscriptionId.val with
    | none => exact ⟨h, .inl rfl⟩
    | some r =>
      have hr := h.okSes s d hd _ _ hi
      have ho : (⟨(b'.heap r).id, g (b.heap r).topic, (b'.heap r).subscribers.del (f s)⟩ : Subscription) =
          Sub.rename f g { b.heap r with subscribers := (b.heap r).subscribers.del s } := by
        rw [h.heap r hr]; simp only [Sub.rename, Dict.del_mapKV hf]
      have hc0 : (b'.heap r).subscribers.contains (f s) = (b.heap r).subscribers.contains s := by
        rw [h.heap r hr, contains_sub hf]
      have hz : ((b'.heap r).subscribers.del (f s)).size = ((b.heap r).subscribers.del s).size := by
        rw [h.heap r hr]; simp only [Sub.rename, Dict.del_mapKV hf, Dict.size_mapKV]
      have ht : (b'.heap r).topic = g (b.heap r).topic := by rw [h.heap r hr]; rfl
      simp only [ho, hc0, hz, ht]
      split
      · have hw := h.write r { b.heap r with subscribers := (b.heap r).subscribers.del s }
        generalize ({ b.heap r with subscribers := (b.heap r).subscribers.del s } : Subscription) = o at hw ⊢
        have hc : (b'.write r (Sub.rename f g o)).subscriptionsByTopic.contains (g (b.heap r).topic) =
            (b.write r o).subscriptionsByTopic.contains (b.heap r).topic := by
          rw [hw.topic]; exact Dict.contains_mapKV hg _ _
        have hdel : ∀ i r', (d.del m.subscriptionId.val).get i = some r' → r' < b.nextRef := by
          intro i r' hi'
          simp only [Dict.get_del] at hi'
          split at hi'
          · cases hi'
          · exact h.okSes s d hd _ _ hi'
        rw [hc]
        split
        · exact ⟨hw, .inl rfl⟩
        · split
          · exact ⟨(hw.delTopic hg _).setSes hf s _ ((h.wfSes s d hd).del _) hdel, rfl⟩
          · exact ⟨hw.setSes hf s _ ((h.wfSes s d hd).del _) hdel, rfl⟩
      · exact ⟨h, .inl rfl⟩

theorem renamed_publish (hf : OneToOne f) (hg : OneToOne g) (h : Renamed f g b b') (s : Int) (m : Publish) :
    Renamed f g (b.receivePublish s m).1 (b'.receivePublish (f s) { m with topic := g m.topic }).1 ∧
    Alike (fun p : Publication => { p with recipients := p.recipients.map f, ack := p.ack.map (sent f) })
      (b.receivePublish s m).2 (b'.receivePublish (f s) { m with topic := g m.topic }).2 := by
  have hc : b'.subscriptionsBySession.contains (f s) = b.subscriptionsBySession.contains s := by
    rw [h.ses, Dict.contains_mapKV hf]
  simp only [receivePublish, hc]
  split
  · refine ⟨⟨h.next, h.heap, h.topic, h.ses, h.sessions, by simp only [h.idgen], h.okTopic, h.okSes, h.wfSes⟩, ?_⟩
    simp only [Alike, h.getTopic hg, h.idgen]
    cases ht : b.subscriptionsByTopic.get m.topic with
    | none => split <;> rfl
    | some r =>
      simp only [h.heap r (h.okTopic _ _ ht)]
      split <;> simp [Sub.rename, Dict.keys_mapKV, sent]
  · exact ⟨h, .inr ⟨_, _, rfl, rfl⟩⟩

theorem renamed_step (hf : OneToOne f) (hg : OneToOne g) (h : Renamed f g b b') (op : Op) :
    Renamed f g (b.step op).1 (b'.step (pubOp f g op)).1 ∧ Alike (pubOut f) (b.step op).2 (b'.step (pubOp f g op)).2 := by
  cases op with
  | addSession d =>
    obtain ⟨h1, h2⟩ := renamed_addSession hf h d
    refine ⟨h1, ?_⟩
    simp only [step, pubOp, h2]
    cases (b.addSession d).2 <;> simp [Alike, Except.map, pubOut]
  | removeSession s =>
    obtain ⟨h1, h2⟩ := renamed_removeSession hf hg h s
    refine ⟨h1, ?_⟩
    simp only [step, pubOp, h2]
    cases (b.removeSession s).2 <;> simp [Alike, Except.map, pubOut]
  | hasSubscription t =>
    refine ⟨h, ?_⟩
    simp [step, pubOp, hasSubscription, h.topic, Dict.contains_mapKV hg, Alike, pubOut]
  | receivePublish s m =>
    obtain ⟨h1, h2⟩ := renamed_publish hf hg h s m
    refine ⟨h1, ?_⟩
    simp only [step, pubOp]
    revert h2
    cases (b.receivePublish s m).2 <;> cases (b'.receivePublish (f s) { m with topic := g m.topic }).2 <;>
      simp [Alike, Except.map, pubOut]
  | receiveMessage s m =>
    have key : Renamed f g (b.receiveMessage s m).1 (b'.receiveMessage (f s) (message g m)).1 ∧
        Alike (sent f) (b.receiveMessage s m).2 (b'.receiveMessage (f s) (message g m)).2 := by
      cases m <;> first
        | exact renamed_subscribe hf hg h s _
        | exact renamed_unsubscribe hf hg h s _
        | exact ⟨h, .inl rfl⟩
    refine ⟨key.1, ?_⟩
    have h2 := key.2
    simp only [step, pubOp]
    revert h2
    cases (b.receiveMessage s m).2 <;> cases (b'.receiveMessage (f s) (message g m)).2 <;>
      simp [Alike, Except.map, pubOut]

theorem renamed_runFrom (hf : OneToOne f) (hg : OneToOne g) (ops : List Op) : ∀ b b' : Broker, Renamed f g b b' →
    Renamed f g (b.runFrom ops).1 (b'.runFrom (ops.map (pubOp f g))).1 := by
  induction ops with
  | nil => intro b b' h; exact h
  | cons op ops ih => intro b b' h; exact ih _ _ (renamed_step hf hg h op).1

end Broker
end Wamp
