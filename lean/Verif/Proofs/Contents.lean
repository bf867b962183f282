import Verif.Spec.Contents
import Verif.Proofs.DictLemmas

/-! # The routers work on messages without contents, and put the contents in at the end -/

namespace Wamp
open Wamp.Spec.Contents

theorem PyDict.get?_set_other (d : PyDict) (k k' : String) (v : Value) (h : k' ≠ k) :
    PyDict.get? (PyDict.set d k' v) k = PyDict.get? d k := by
  induction d with
  | nil => simp [PyDict.set, PyDict.get?, h]
  | cons x d ih =>
    obtain ⟨a, w⟩ := x
    cases a <;> simp only [PyDict.set, PyDict.get?, ih]
    rename_i s
    by_cases hs : s = k'
    · subst hs; rw [if_pos rfl]; simp [PyDict.get?, h]
    · rw [if_neg hs]; simp only [PyDict.get?, ih]

theorem get?_withSerializer (d : PyDict) (s : Option Int) (k : String) (h : "x_payload_serializer" ≠ k) :
    PyDict.get? (withSerializer d s) k = PyDict.get? d k := by
  cases s with
  | none => rfl
  | some n => exact PyDict.get?_set_other d k _ _ h

theorem get?_only2 (a b : String) (h : a ≠ b) (d : PyDict) :
    PyDict.get? (only [a, b] d) a = PyDict.get? d a ∧ PyDict.get? (only [a, b] d) b = PyDict.get? d b := by
  cases h1 : PyDict.get? d a <;> cases h2 : PyDict.get? d b <;>
    simp [only, List.filterMap, h1, h2, PyDict.get?, h, h.symm]
theorem get?_only1 (a : String) (d : PyDict) : PyDict.get? (only [a] d) a = PyDict.get? d a := by
  cases h1 : PyDict.get? d a <;> simp [only, List.filterMap, h1, PyDict.get?]

/-! ## The dealer -/
namespace Dealer

/-- The same dealer, up to what it knows of the sessions besides their ids. -/
structure Forgets (b b' : Dealer) : Prop where
  rest : b' = { b with sessions := b'.sessions }
  who : ∀ s, b'.sessions.contains s = b.sessions.contains s

theorem removeLoop_sessions (s : Int) (x : Dict Int SessionDetails) (l : List (Int × Ref)) : ∀ b : Dealer,
    ({ b with sessions := x } : Dealer).removeLoop s l =
      ({ (b.removeLoop s l).1 with sessions := x }, (b.removeLoop s l).2) ∧ (b.removeLoop s l).1.sessions = b.sessions := by
  induction l with
  | nil => intro b; exact ⟨rfl, rfl⟩
  | cons y l ih =>
    obtain ⟨i, r⟩ := y
    intro b
    simp only [removeLoop]
    cases hp : b.registrationsByProcedure.get (b.heap r).procedure with
    | none => exact ⟨rfl, rfl⟩
    | some r' =>
      simp only [write]
      generalize (if (b.heap r').registrants.contains s then
        { b.heap r' with registrants := (b.heap r').registrants.del s } else b.heap r') = o
      by_cases h1 : o.registrants.size = 0
      · simp only [h1, if_true]
        split
        · exact ⟨rfl, rfl⟩
        · exact ih { b.write r' o with registrationsByProcedure := b.registrationsByProcedure.del o.procedure }
      · simp only [h1, if_false, false_and]
        exact ih (b.write r' o)

theorem forgets_removeSession {b b' : Dealer} (h : Forgets b b') (s : Int) :
    Forgets (b.removeSession s).1 (b'.removeSession s).1 ∧ (b'.removeSession s).2 = (b.removeSession s).2 := by
  obtain ⟨h1, h2⟩ := h
  generalize b'.sessions = x at h1 h2
  subst h1
  simp only [removeSession]
  cases hd : b.registrationsBySession.get s with
  | none => exact ⟨⟨rfl, h2⟩, rfl⟩
  | some d =>
    obtain ⟨k1, k2⟩ := removeLoop_sessions s x d.items { b with registrationsBySession := b.registrationsBySession.del s }
    simp only at k1 k2 ⊢
    rw [k1]
    generalize ({ b with registrationsBySession := b.registrationsBySession.del s } : Dealer).removeLoop s d.items = q at *
    obtain ⟨b1, r1⟩ := q
    simp only at k2 ⊢
    cases r1 with
    | error e => exact ⟨⟨rfl, by simpa [k2] using h2⟩, rfl⟩
    | ok u =>
      simp only [k2, h2]
      split
      · refine ⟨⟨rfl, ?_⟩, rfl⟩
        intro s'
        have := h2 s'
        simp only [Dict.contains, Dict.get_del] at this ⊢
        split <;> simp_all
      · exact ⟨⟨rfl, by simpa [k2] using h2⟩, rfl⟩

theorem forgets_addSession {b b' : Dealer} (h : Forgets b b') (d : SessionDetails) :
    Forgets (b.addSession d).1 (b'.addSession (anyone d)).1 ∧ (b'.addSession (anyone d)).2 = (b.addSession d).2 := by
  obtain ⟨h1, h2⟩ := h
  generalize b'.sessions = x at h1 h2
  subst h1
  have hk : (anyone d).sessionId.val = d.sessionId.val := rfl
  simp only [addSession, hk]
  split
  · exact ⟨⟨rfl, h2⟩, rfl⟩
  · refine ⟨⟨rfl, ?_⟩, rfl⟩
    intro s'
    have := h2 s'
    simp only [Dict.contains, Dict.get_set] at this ⊢
    split <;> simp_all

/-- A message does not look at what else is known of the sessions. -/
theorem receiveMessage_sessions (b : Dealer) (x : Dict Int SessionDetails) (s : Int) (m : Message) :
    ({ b with sessions := x } : Dealer).receiveMessage s m =
      ({ (b.receiveMessage s m).1 with sessions := x }, (b.receiveMessage s m).2) ∧
    (b.receiveMessage s m).1.sessions = b.sessions := by
  cases m <;> try exact ⟨rfl, rfl⟩
  case call m =>
    simp only [receiveMessage, receiveCall]
    split
    · exact ⟨rfl, rfl⟩
    · split
      · split <;> exact ⟨rfl, rfl⟩
      · exact ⟨rfl, rfl⟩
  case yield_ m =>
    simp only [receiveMessage, receiveYield]
    split
    · exact ⟨rfl, rfl⟩
    · split
      · exact ⟨rfl, rfl⟩
      · split
        · exact ⟨rfl, rfl⟩
        · split <;> exact ⟨rfl, rfl⟩
  case register m =>
    simp only [receiveMessage, receiveRegister]
    split
    · exact ⟨rfl, rfl⟩
    · split <;> exact ⟨rfl, rfl⟩
  case unregister m =>
    simp only [receiveMessage, receiveUnregister]
    split
    · exact ⟨rfl, rfl⟩
    · split
      · exact ⟨rfl, rfl⟩
      · simp only [write]
        rename_i r _
        split
        · split
          · by_cases hc : b.registrationsByProcedure.contains (b.heap r).procedure = true
            · constructor <;> simp only [hc, if_true]
            · constructor <;> simp [hc]
          · exact ⟨rfl, rfl⟩
        · exact ⟨rfl, rfl⟩
  case error m =>
    simp only [receiveMessage, receiveError]
    split
    · exact ⟨rfl, rfl⟩
    · split <;> exact ⟨rfl, rfl⟩

/-- A message without contents is routed as the message is. -/
theorem receiveMessage_bare (b : Dealer) (s : Int) (m : Message) :
    (b.receiveMessage s (bare m)).1 = (b.receiveMessage s m).1 ∧
    (b.receiveMessage s m).2 = (b.receiveMessage s (bare m)).2.map fun r => ⟨fill m r.message, r.recipient⟩ := by
  cases m <;> try exact ⟨rfl, rfl⟩
  case call m =>
    have e1 : PyDict.get? m.options OPTION_PROGRESS = PyDict.get? m.options_ "progress" := get?_withSerializer _ _ _ (by decide)
    have e2 : PyDict.get? m.options OPTION_RECEIVE_PROGRESS = PyDict.get? m.options_ "receive_progress" :=
      get?_withSerializer _ _ _ (by decide)
    obtain ⟨f1, f2⟩ := get?_only2 "receive_progress" "progress" (by decide) m.options_
    have f1' : PyDict.get? (Call.options
        { requestId := m.requestId, procedure := m.procedure, options_ := only ["receive_progress", "progress"] m.options_ })
        OPTION_RECEIVE_PROGRESS = PyDict.get? m.options_ "receive_progress" := f1
    have f2' : PyDict.get? (Call.options
        { requestId := m.requestId, procedure := m.procedure, options_ := only ["receive_progress", "progress"] m.options_ })
        OPTION_PROGRESS = PyDict.get? m.options_ "progress" := f2
    simp only [bare, receiveMessage, receiveCall, e1, e2, f1', f2']
    split
    · exact ⟨rfl, rfl⟩
    · split
      · split <;> exact ⟨rfl, rfl⟩
      · exact ⟨rfl, rfl⟩
  case yield_ m =>
    have e1 : PyDict.get? m.options OPTION_PROGRESS = PyDict.get? m.options_ "progress" := get?_withSerializer _ _ _ (by decide)
    have f1' : PyDict.get? (Yield.options { requestId := m.requestId, options_ := only ["progress"] m.options_ }) OPTION_PROGRESS =
        PyDict.get? m.options_ "progress" := get?_only1 _ _
    simp only [bare, receiveMessage, receiveYield, e1, f1']
    split
    · exact ⟨rfl, rfl⟩
    · split
      · exact ⟨rfl, rfl⟩
      · split
        · exact ⟨rfl, rfl⟩
        · split <;> exact ⟨rfl, rfl⟩
  case register m =>
    simp only [bare, receiveMessage, receiveRegister]
    split
    · exact ⟨trivial, rfl⟩
    · split <;> exact ⟨trivial, rfl⟩
  case unregister m =>
    refine ⟨rfl, ?_⟩
    simp only [bare]
    cases (b.receiveMessage s (.unregister m)).2 <;> rfl
  case error m =>
    simp only [bare, receiveMessage, receiveError]
    split
    · exact ⟨rfl, rfl⟩
    · split <;> exact ⟨rfl, rfl⟩

theorem forgets_step {b b' : Dealer} (h : Forgets b b') (op : Op) :
    Forgets (b.step op).1 (b'.step (bareRpc op)).1 ∧ (b.step op).2 = (b'.step (bareRpc op)).2.map (fillRpc op) := by
  cases op with
  | addSession d =>
    obtain ⟨h1, h2⟩ := forgets_addSession h d
    refine ⟨h1, ?_⟩
    simp only [step, bareRpc, h2]
    cases (b.addSession d).2 <;> rfl
  | removeSession s =>
    obtain ⟨h1, h2⟩ := forgets_removeSession h s
    refine ⟨h1, ?_⟩
    simp only [step, bareRpc, h2]
    cases (b.removeSession s).2 <;> rfl
  | hasRegistration p =>
    refine ⟨h, ?_⟩
    simp only [step, bareRpc]
    rw [h.rest]; rfl
  | receiveMessage s m =>
    obtain ⟨h1, h2⟩ := h
    generalize b'.sessions = x at h1 h2
    subst h1
    obtain ⟨k1, k2⟩ := receiveMessage_bare b s m
    obtain ⟨j1, j2⟩ := receiveMessage_sessions b x s (bare m)
    simp only [step, bareRpc, j1, k1]
    refine ⟨⟨rfl, ?_⟩, ?_⟩
    · rw [k1] at j2
      simpa [j2] using h2
    · rw [k2]
      cases (b.receiveMessage s (bare m)).2 <;> rfl

theorem forgets_runFrom (ops : List Op) : ∀ b b' : Dealer, Forgets b b' →
    Forgets (b.runFrom ops).1 (b'.runFrom (ops.map bareRpc)).1 := by
  induction ops with
  | nil => intro b b' h; exact h
  | cons op ops ih => intro b b' h; exact ih _ _ (forgets_step h op).1

theorem forgets_refl (b : Dealer) : Forgets b b := ⟨rfl, fun _ => rfl⟩

end Dealer

/-! ## The broker -/
namespace Broker

/-- The same broker, up to what it knows of the sessions besides their ids. -/
structure Forgets (b b' : Broker) : Prop where
  rest : b' = { b with sessions := b'.sessions }
  who : ∀ s, b'.sessions.contains s = b.sessions.contains s

theorem removeLoop_sessions (s : Int) (x : Dict Int SessionDetails) (l : List (Int × Ref)) : ∀ b : Broker,
    ({ b with sessions := x } : Broker).removeLoop s l =
      ({ (b.removeLoop s l).1 with sessions := x }, (b.removeLoop s l).2) ∧ (b.removeLoop s l).1.sessions = b.sessions := by
  induction l with
  | nil => intro b; exact ⟨rfl, rfl⟩
  | cons y l ih =>
    obtain ⟨i, r⟩ := y
    intro b
    simp only [removeLoop]
    cases hp : b.subscriptionsByTopic.get (b.heap r).topic with
    | none => exact ⟨rfl, rfl⟩
    | some r' =>
      simp only [write]
      generalize (if (b.heap r').subscribers.contains s then
        { b.heap r' with subscribers := (b.heap r').subscribers.del s } else b.heap r') = o
      by_cases h1 : o.subscribers.size = 0
      · simp only [h1, if_true]
        split
        · exact ⟨rfl, rfl⟩
        · exact ih { b.write r' o with subscriptionsByTopic := b.subscriptionsByTopic.del o.topic }
      · simp only [h1, if_false, false_and]
        exact ih (b.write r' o)

theorem forgets_removeSession {b b' : Broker} (h : Forgets b b') (s : Int) :
    Forgets (b.removeSession s).1 (b'.removeSession s).1 ∧ (b'.removeSession s).2 = (b.removeSession s).2 := by
  obtain ⟨h1, h2⟩ := h
  generalize b'.sessions = x at h1 h2
  subst h1
  simp only [removeSession]
  cases hd : b.subscriptionsBySession.get s with
  | none => exact ⟨⟨rfl, h2⟩, rfl⟩
  | some d =>
    obtain ⟨k1, k2⟩ := removeLoop_sessions s x d.items { b with subscriptionsBySession := b.subscriptionsBySession.del s }
    simp only at k1 k2 ⊢
    rw [k1]
    generalize ({ b with subscriptionsBySession := b.subscriptionsBySession.del s } : Broker).removeLoop s d.items = q at *
    obtain ⟨b1, r1⟩ := q
    simp only at k2 ⊢
    cases r1 with
    | error e => exact ⟨⟨rfl, by simpa [k2] using h2⟩, rfl⟩
    | ok u =>
      simp only [k2, h2]
      split
      · refine ⟨⟨rfl, ?_⟩, rfl⟩
        intro s'
        have := h2 s'
        simp only [Dict.contains, Dict.get_del] at this ⊢
        split <;> simp_all
      · exact ⟨⟨rfl, by simpa [k2] using h2⟩, rfl⟩

theorem forgets_addSession {b b' : Broker} (h : Forgets b b') (d : SessionDetails) :
    Forgets (b.addSession d).1 (b'.addSession (anyone d)).1 ∧ (b'.addSession (anyone d)).2 = (b.addSession d).2 := by
  obtain ⟨h1, h2⟩ := h
  generalize b'.sessions = x at h1 h2
  subst h1
  have hk : (anyone d).sessionId.val = d.sessionId.val := rfl
  simp only [addSession, hk]
  split
  · exact ⟨⟨rfl, h2⟩, rfl⟩
  · refine ⟨⟨rfl, ?_⟩, rfl⟩
    intro s'
    have := h2 s'
    simp only [Dict.contains, Dict.get_set] at this ⊢
    split <;> simp_all

theorem receiveMessage_sessions (b : Broker) (x : Dict Int SessionDetails) (s : Int) (m : Message) :
    ({ b with sessions := x } : Broker).receiveMessage s m =
      ({ (b.receiveMessage s m).1 with sessions := x }, (b.receiveMessage s m).2) ∧
    (b.receiveMessage s m).1.sessions = b.sessions := by
  cases m <;> try exact ⟨rfl, rfl⟩
  case subscribe m =>
    simp only [receiveMessage, receiveSubscribe]
    split
    · exact ⟨rfl, rfl⟩
    · simp only [write, alloc]
      cases b.subscriptionsByTopic.get m.topic <;> simp only <;> split <;> exact ⟨rfl, rfl⟩
  case unsubscribe m =>
    simp only [receiveMessage, receiveUnsubscribe]
    split
    · exact ⟨rfl, rfl⟩
    · split
      · exact ⟨rfl, rfl⟩
      · simp only [write]
        rename_i r _
        split
        · by_cases h1 : ((b.heap r).subscribers.del s).size = 0 <;>
            by_cases hc : b.subscriptionsByTopic.contains (b.heap r).topic = true <;>
            constructor <;> simp [h1, hc]
        · exact ⟨rfl, rfl⟩

theorem forgets_step {b b' : Broker} (h : Forgets b b') (op : Op) :
    Forgets (b.step op).1 (b'.step (barePub op)).1 ∧ (b.step op).2 = (b'.step (barePub op)).2.map (fillPub op) := by
  cases op with
  | addSession d =>
    obtain ⟨h1, h2⟩ := forgets_addSession h d
    refine ⟨h1, ?_⟩
    simp only [step, barePub, h2]
    cases (b.addSession d).2 <;> rfl
  | removeSession s =>
    obtain ⟨h1, h2⟩ := forgets_removeSession h s
    refine ⟨h1, ?_⟩
    simp only [step, barePub, h2]
    cases (b.removeSession s).2 <;> rfl
  | hasSubscription p =>
    refine ⟨h, ?_⟩
    simp only [step, barePub]
    rw [h.rest]; rfl
  | receivePublish s m =>
    obtain ⟨h1, h2⟩ := h
    generalize b'.sessions = x at h1 h2
    subst h1
    have hf : PyDict.flag (only ["acknowledge"] m.options) "acknowledge" = PyDict.flag m.options "acknowledge" := by
      simp only [PyDict.flag, get?_only1]
    simp only [step, barePub, barePublish, receivePublish, hf]
    split
    · refine ⟨⟨rfl, h2⟩, ?_⟩
      simp only [Except.map, fillPub]
      cases b.subscriptionsByTopic.get m.topic <;> cases PyDict.flag m.options "acknowledge" <;> rfl
    · exact ⟨⟨rfl, h2⟩, rfl⟩
  | receiveMessage s m =>
    obtain ⟨h1, h2⟩ := h
    generalize b'.sessions = x at h1 h2
    subst h1
    have k1 : b.receiveMessage s (bare m) = b.receiveMessage s m := by cases m <;> rfl
    obtain ⟨j1, j2⟩ := receiveMessage_sessions b x s (bare m)
    simp only [step, barePub, j1, k1]
    refine ⟨⟨rfl, ?_⟩, ?_⟩
    · rw [k1] at j2
      simpa [j2] using h2
    · cases (b.receiveMessage s m).2 <;> rfl

theorem forgets_runFrom (ops : List Op) : ∀ b b' : Broker, Forgets b b' →
    Forgets (b.runFrom ops).1 (b'.runFrom (ops.map barePub)).1 := by
  induction ops with
  | nil => intro b b' h; exact h
  | cons op ops ih => intro b b' h; exact ih _ _ (forgets_step h op).1

theorem forgets_refl (b : Broker) : Forgets b b := ⟨rfl, fun _ => rfl⟩

end Broker
end Wamp
