import Verif.Spec.Session
import Verif.Proofs.DictLemmas
import Verif.Proofs.Lists

/-! # One step of the client session, seen through the specification vocabulary -/

namespace Wamp
open Spec.Ses

@[simp] theorem IdSet.mem_add {s : IdSet} {i j : Int} : j ∈ s.add i ↔ j = i ∨ j ∈ s := by
  unfold IdSet.add
  split
  · rename_i h; constructor
    · exact .inr
    · rintro (rfl | h') <;> assumption
  · simp [or_comm]

@[simp] theorem IdSet.mem_discard {s : IdSet} {i j : Int} : j ∈ s.discard i ↔ j ∈ s ∧ j ≠ i := by
  simp [IdSet.discard]

namespace WAMPSession
variable {W : Type} (c : Codec W)

/-- The session holds a request of this kind with this id. -/
def has (s : WAMPSession) : Kind → Int → Prop
  | .call, i => i ∈ s.callRequests
  | .register, i => i ∈ s.registerRequests
  | .unregister, i => (s.unregisterRequests.get i).isSome = true
  | .publish, i => i ∈ s.publishRequests
  | .subscribe, i => i ∈ s.subscribeRequests
  | .unsubscribe, i => (s.unsubscribeRequests.get i).isSome = true

/-- The session holds an unsubscribe/unregister request with this id that names `t`. -/
def names (s : WAMPSession) : Kind → Int → Int → Prop
  | .unregister, i, t => s.unregisterRequests.get i = some t
  | .unsubscribe, i, t => s.unsubscribeRequests.get i = some t
  | _, _, _ => False

/-- The session holds this grant. -/
def grants (s : WAMPSession) : Kind → Int → Prop
  | .subscribe, t => t ∈ s.subscriptions
  | .register, t => t ∈ s.registrations
  | _, _ => False

instance (s : WAMPSession) : ∀ k i, Decidable (s.has k i)
  | .call, _ | .register, _ | .publish, _ | .subscribe, _ => by unfold has; infer_instance
  | .unregister, _ | .unsubscribe, _ => by unfold has; infer_instance

instance (s : WAMPSession) : ∀ k t, Decidable (s.grants k t)
  | .subscribe, _ | .register, _ => by unfold grants; infer_instance
  | .call, _ | .publish, _ | .unregister, _ | .unsubscribe, _ => .isFalse id

/-! ## Sending -/

theorem has_send (s : WAMPSession) (m : Message) (k : Kind) (i : Int) :
    (s.sendMessage c m).1.has k i ↔ requestOf m = some (k, i) ∨ s.has k i := by
  cases m <;> simp only [sendMessage, requestOf] <;> cases k <;> simp only [has] <;>
    grind [IdSet.mem_add, IdSet.mem_discard, Dict.get_set]

theorem names_send (s : WAMPSession) (m : Message) (k : Kind) (i t : Int) :
    (s.sendMessage c m).1.names k i t ↔
      Names (W := W) (.sendMessage m) k i t ∨ (s.names k i t ∧ requestOf m ≠ some (k, i)) := by
  cases m <;> simp only [sendMessage, requestOf, Names] <;> (try split) <;> cases k <;>
    simp [names, Dict.get_set] <;> grind

theorem grants_send (s : WAMPSession) (m : Message) (k : Kind) (t : Int) :
    (s.sendMessage c m).1.grants k t ↔ s.grants k t := by
  cases m <;> simp only [sendMessage] <;> (try split) <;> cases k <;> simp [grants]

theorem inv_send (s : WAMPSession) (m : Message) (i : Int) :
    i ∈ (s.sendMessage c m).1.invocationRequests ↔
      i ∈ s.invocationRequests ∧ ¬ AnswersInvocation (W := W) (.sendMessage m) i := by
  cases m <;> simp only [sendMessage, AnswersInvocation] <;> (try split) <;>
    simp_all [Invocation.TYPE] <;> grind

/-! ## Receiving -/

theorem has_recv (s : WAMPSession) (m : Message) (k : Kind) (i : Int) :
    (s.receiveMessage m).1.has k i ↔ s.has k i ∧ replyTo m ≠ some (k, i) := by
  cases m
  case error m =>
    simp only [receiveMessage, receiveError, replyTo, kindOfCode, Call.TYPE, Register.TYPE, Unregister.TYPE,
      Subscribe.TYPE, Unsubscribe.TYPE, Publish.TYPE, Dict.contains]
    cases k <;> simp only [has] <;> grind [IdSet.mem_discard, Dict.get_del]
  all_goals
    simp only [receiveMessage, replyTo]
    cases k <;> simp only [has] <;> grind [IdSet.mem_discard, Dict.get_del]

theorem names_recv (s : WAMPSession) (m : Message) (k : Kind) (i t : Int) :
    (s.receiveMessage m).1.names k i t ↔ s.names k i t ∧ replyTo m ≠ some (k, i) := by
  cases m
  case error m =>
    simp only [receiveMessage, receiveError, replyTo, kindOfCode, Call.TYPE, Register.TYPE, Unregister.TYPE,
      Subscribe.TYPE, Unsubscribe.TYPE, Publish.TYPE, Dict.contains]
    cases k <;> simp only [names] <;> grind [IdSet.mem_discard, Dict.get_del]
  all_goals
    simp only [receiveMessage, replyTo]
    cases k <;> simp only [names] <;> grind [IdSet.mem_discard, Dict.get_del]

/-- A reply other than UNREGISTERED/UNSUBSCRIBED. -/
def plainReply : Message → Bool
  | .result _ | .registered _ | .published _ | .subscribed _ => true
  | .error m => (kindOfCode m.messageType.val).isSome
  | _ => false

/-- Everything about a received reply other than UNREGISTERED/UNSUBSCRIBED. -/
theorem recv_plain {s : WAMPSession} {m : Message} {k : Kind} {i : Int} (hp : plainReply m = true)
    (hr : replyTo m = some (k, i)) :
    (s.has k i → (s.receiveMessage m).2 = .ok m) ∧
    (¬ s.has k i → (s.receiveMessage m).1 = s ∧ ∃ t, (s.receiveMessage m).2 = .error (.valueError t)) := by
  cases m
  case error m =>
    simp only [receiveMessage, receiveError, replyTo, kindOfCode, Call.TYPE, Register.TYPE, Unregister.TYPE,
      Subscribe.TYPE, Unsubscribe.TYPE, Publish.TYPE, Dict.contains] at hr ⊢
    (cases k <;> simp only [has]) <;> grind
  all_goals first
    | (cases hp; done)
    | (simp only [replyTo, Option.some.injEq, Prod.mk.injEq] at hr
       obtain ⟨rfl, rfl⟩ := hr
       simp only [receiveMessage, has]
       grind)

theorem recv_unregistered (s : WAMPSession) (m : Unregistered) :
    (¬ s.has .unregister m.requestId.val →
      (s.receiveMessage (.unregistered m)).1 = s ∧ ∃ t, (s.receiveMessage (.unregistered m)).2 = .error (.valueError t)) ∧
    (∀ t, s.names .unregister m.requestId.val t →
      (s.grants .register t → (s.receiveMessage (.unregistered m)).2 = .ok (.unregistered m)) ∧
      (¬ s.grants .register t → ∃ t, (s.receiveMessage (.unregistered m)).2 = .error (.valueError t))) := by
  simp only [receiveMessage, has, names, grants]
  grind

theorem recv_unsubscribed (s : WAMPSession) (m : Unsubscribed) :
    (¬ s.has .unsubscribe m.requestId.val →
      (s.receiveMessage (.unsubscribed m)).1 = s ∧ ∃ t, (s.receiveMessage (.unsubscribed m)).2 = .error (.valueError t)) ∧
    (∀ t, s.names .unsubscribe m.requestId.val t →
      (s.grants .subscribe t → (s.receiveMessage (.unsubscribed m)).2 = .ok (.unsubscribed m)) ∧
      (¬ s.grants .subscribe t → ∃ t, (s.receiveMessage (.unsubscribed m)).2 = .error (.valueError t))) := by
  simp only [receiveMessage, has, names, grants]
  grind

/-- Subscriptions after receiving a message. -/
theorem subs_recv (s : WAMPSession) (m : Message) (t : Int) :
    t ∈ (s.receiveMessage m).1.subscriptions ↔
      ((∃ r, (s.receiveMessage m).2 = .ok r) ∧ ∃ m', m = .subscribed m' ∧ m'.subscriptionId.val = t) ∨
      (t ∈ s.subscriptions ∧ ¬ ((∃ r, (s.receiveMessage m).2 = .ok r) ∧
        ∃ m', m = .unsubscribed m' ∧ s.names .unsubscribe m'.requestId.val t)) := by
  cases m
  case error m =>
    simp only [receiveMessage, receiveError]
    grind
  all_goals
    simp only [receiveMessage, names]
    grind [IdSet.mem_discard, IdSet.mem_add]

/-- Registrations after receiving a message. -/
theorem regs_recv (s : WAMPSession) (m : Message) (t : Int) :
    t ∈ (s.receiveMessage m).1.registrations ↔
      ((∃ r, (s.receiveMessage m).2 = .ok r) ∧ ∃ m', m = .registered m' ∧ m'.registrationId.val = t) ∨
      (t ∈ s.registrations ∧ ¬ ((∃ r, (s.receiveMessage m).2 = .ok r) ∧
        ∃ m', m = .unregistered m' ∧ s.names .unregister m'.requestId.val t)) := by
  cases m
  case error m =>
    simp only [receiveMessage, receiveError]
    grind
  all_goals
    simp only [receiveMessage, names]
    grind [IdSet.mem_discard, IdSet.mem_add]

/-- Pending invocations after receiving a message. -/
theorem inv_recv (s : WAMPSession) (m : Message) (i : Int) :
    i ∈ (s.receiveMessage m).1.invocationRequests ↔
      ((∃ r, (s.receiveMessage m).2 = .ok r) ∧ ∃ m', m = .invocation m' ∧ m'.requestId.val = i) ∨
      i ∈ s.invocationRequests := by
  cases m
  case error m =>
    simp only [receiveMessage, receiveError]
    grind
  all_goals
    simp only [receiveMessage]
    grind [IdSet.mem_add]

end WAMPSession
end Wamp
