import Verif.Spec.Dealer
import Verif.Proofs.DealerInv
import Verif.Proofs.Lists
import Verif.Props.Idgen

/-! # The dealer's state against the observed trace -/

namespace Wamp.Dealer
open Spec.Rpc

theorem idgen_next (n : Nat) : (IdGen.after n).next = (IdGen.after (n + 1), IdGen.draw n) := rfl
theorem draw_small {n : Nat} (h : n < 2 ^ 53) : IdGen.draw n = n + 1 := by rw [draw_eq]; omega

theorem flag_eq (d : PyDict) (k : String) : ((PyDict.get? d k).getD (.bool false)).truthy = PyDict.flag d k := by
  unfold PyDict.flag; split <;> simp_all [Value.truthy]

/-- The entry of the view for an entry of `pending_calls`. -/
def entry (i : Int) (p : PendingInvocation) : Pending := ⟨i, p.callerId, p.requestId, p.calleeId, p.receiveProgress.truthy⟩

/-- The part of the relation concerned with registrations. -/
structure RegRel (b : Dealer) (v : View) : Prop where
  known : ∀ s, s ∈ v.known ↔ ∃ d, b.registrationsBySession.get s = some d
  held : ∀ s p i, (⟨s, p, i⟩ : Reg) ∈ v.held ↔
    ∃ r, b.registrationsByProcedure.get p = some r ∧ (b.heap r).registrants = one s ∧ (b.heap r).id = i
  dict : ∀ s p r, b.registrationsByProcedure.get p = some r → (b.heap r).registrants = one s →
    ∃ d, b.registrationsBySession.get s = some d ∧ d.get (b.heap r).id = some r
  ids : ∀ x ∈ v.held, 1 ≤ x.id ∧ x.id ≤ v.drawn
  inj : ∀ x ∈ v.held, ∀ y ∈ v.held, x.id = y.id → x = y

/-- The part of the relation concerned with calls, for any client behaviour. -/
structure CallRel (b : Dealer) (v : View) : Prop where
  gen : b.idgen = IdGen.after v.drawn
  range : ∀ x ∈ v.issued, 1 ≤ x.inv ∧ x.inv ≤ v.drawn
  inj : ∀ x ∈ v.issued, ∀ y ∈ v.issued, x.inv = y.inv → x = y
  sub : ∀ x ∈ v.pending, x ∈ v.issued
  pend : ∀ i p, b.pendingCalls.get i = some p → entry i p ∈ v.pending
  sup : ∀ x ∈ v.pending, ∃ p, b.pendingCalls.get x.inv = some p ∧ x = entry x.inv p
  map : ∀ k i, b.callToInvocationId.get k = some i → ∃ x ∈ v.issued, x.inv = i ∧ (x.caller, x.request.val) = k

/-- What holds in addition for the calls of a session that does not reuse pending request ids. -/
def FullRel (c : Int) (b : Dealer) (v : View) : Prop :=
  ∀ x ∈ v.pending, x.caller = c → b.callToInvocationId.get (x.caller, x.request.val) = some x.inv

theorem view_snoc (tr : List Obs) (e : Obs) : view (tr ++ [e]) = (view tr).next e := by simp [view]

theorem noReuse_snoc {s : Int} {tr : List Obs} {e : Obs} (h : NoReuse s (tr ++ [e])) : NoReuse s tr ∧ ¬ ReusesPending s (view tr) e :=
  ⟨fun pre e' post he => h pre e' (post ++ [e]) (by simp [he]), h tr e [] rfl⟩

theorem noReuse_snoc_mk {s : Int} {tr : List Obs} {e : Obs} (h : NoReuse s tr) (he : ¬ ReusesPending s (view tr) e) : NoReuse s (tr ++ [e]) := by
  intro pre e' post h'
  rcases List.eq_nil_or_concat post with rfl | ⟨post', x, rfl⟩
  · have := List.append_inj' h' rfl
    injection this.2 with h2; rw [← this.1, ← h2]; exact he
  · have h2 : tr ++ [e] = (pre ++ e' :: post') ++ [x] := by simp [h']
    have := List.append_inj' h2 rfl
    exact h pre e' post' this.1

theorem drawn_next_le (v : View) (e : Obs) : v.drawn ≤ (v.next e).drawn := by
  unfold View.next; split <;> simp <;> split <;> simp

/-! ## Closed forms of CALL, YIELD and ERROR -/

/-- The details of the INVOCATION. -/
def callDetails (m : Call) : PyDict :=
  let details : PyDict := []
  let details := if PyDict.flag m.options "receive_progress" then PyDict.set details "receive_progress" (.bool true) else details
  if PyDict.flag m.options "progress" then PyDict.set details "progress" (.bool true) else details

/-- The INVOCATION a CALL is turned into. -/
def invocationFor (m : Call) (i rid : Int) : Invocation :=
  ⟨.int i, .int rid, m.args, m.kwargs, callDetails m, m.serializer, m.payload, false⟩

theorem call_none (b : Dealer) (s : Int) (m : Call) (h : b.registrationsByProcedure.get m.procedure = none) :
    b.step (.receiveMessage s (.call m)) =
      (b, .ok (.reply ⟨.error ⟨.int Call.TYPE, m.requestId, "wamp.error.no_such_procedure", none, none, []⟩, s⟩)) := by
  simp only [step, receiveMessage, receiveCall, h]; rfl

/-- A CALL that continues an earlier one. -/
theorem call_continue (b : Dealer) (s : Int) (m : Call) (r : Ref) (c i : Int)
    (h : b.registrationsByProcedure.get m.procedure = some r) (hc : (b.heap r).registrants = one c)
    (hp : PyDict.flag m.options "progress" = true) (hm : b.callToInvocationId.get (s, m.requestId.val) = some i) :
    b.step (.receiveMessage s (.call m)) = (b, .ok (.reply ⟨.invocation (invocationFor m i (b.heap r).id), c⟩)) := by
  have hf := first_of hc
  simp only [step, receiveMessage, receiveCall, h, OPTION_PROGRESS, OPTION_RECEIVE_PROGRESS, flag_eq, hp, if_true, hm, hf]
  simp only [invocationFor, callDetails, hp, if_true]; rfl

/-- The pending entry a new call gets. -/
def newEntry (m : Call) (s c : Int) : PendingInvocation :=
  ⟨m.requestId, s, c, (PyDict.get? m.options "progress").getD (.bool false),
    (PyDict.get? m.options "receive_progress").getD (.bool false)⟩

/-- A CALL that starts a new invocation. -/
theorem call_new (b : Dealer) (s : Int) (m : Call) (r : Ref) (c : Int)
    (h : b.registrationsByProcedure.get m.procedure = some r) (hc : (b.heap r).registrants = one c)
    (hp : PyDict.flag m.options "progress" = false ∨ b.callToInvocationId.get (s, m.requestId.val) = none) :
    b.step (.receiveMessage s (.call m)) =
      ({ heap := b.heap
         nextRef := b.nextRef
         registrationsByProcedure := b.registrationsByProcedure
         registrationsBySession := b.registrationsBySession
         pendingCalls := b.pendingCalls.set b.idgen.next.2 (newEntry m s c)
         callToInvocationId := b.callToInvocationId.set (s, m.requestId.val) b.idgen.next.2
         sessions := b.sessions
         idgen := b.idgen.next.1 },
       .ok (.reply ⟨.invocation (invocationFor m b.idgen.next.2 (b.heap r).id), c⟩)) := by
  have hf := first_of hc
  simp only [step, receiveMessage, receiveCall, h, OPTION_PROGRESS, OPTION_RECEIVE_PROGRESS, flag_eq, hf, addCall]
  simp only [invocationFor, callDetails, newEntry]
  cases hp' : PyDict.flag m.options "progress" with
  | false => simp only [Bool.false_eq_true, if_false]; rfl
  | true =>
    rcases hp with hp | hp
    · rw [hp'] at hp; cases hp
    · simp only [if_true, hp]; rfl

theorem yield_progress (b : Dealer) (s : Int) (m : Yield) (p : PendingInvocation)
    (h : b.pendingCalls.get m.requestId.val = some p) (hs : s = p.calleeId)
    (hp : PyDict.flag m.options "progress" = true) (hr : p.receiveProgress.truthy = true) :
    b.step (.receiveMessage s (.yield_ m)) = (b, .ok (.reply ⟨.result ⟨p.requestId, m.args, m.kwargs,
      [(.str "progress", (PyDict.get? m.options "progress").getD (.bool false))], none, none, false⟩, p.callerId⟩)) := by
  simp only [step, receiveMessage, receiveYield, h, hs, ne_eq, not_true_eq_false, if_false, OPTION_PROGRESS, flag_eq, hp, hr,
    Bool.and_self, if_true]; rfl

theorem yield_final (b : Dealer) (s : Int) (m : Yield) (p : PendingInvocation)
    (h : b.pendingCalls.get m.requestId.val = some p) (hs : s = p.calleeId)
    (hp : (PyDict.flag m.options "progress" && p.receiveProgress.truthy) = false) (i : Int)
    (hm : b.callToInvocationId.get (p.callerId, p.requestId.val) = some i) :
    b.step (.receiveMessage s (.yield_ m)) =
      ({ heap := b.heap
         nextRef := b.nextRef
         registrationsByProcedure := b.registrationsByProcedure
         registrationsBySession := b.registrationsBySession
         pendingCalls := b.pendingCalls.del m.requestId.val
         callToInvocationId := b.callToInvocationId.del (p.callerId, p.requestId.val)
         sessions := b.sessions
         idgen := b.idgen }, .ok (.reply ⟨.result ⟨p.requestId, m.args, m.kwargs, [], none, none, false⟩, p.callerId⟩)) := by
  have hc' : b.callToInvocationId.contains (p.callerId, p.requestId.val) = true := Dict.contains_iff_get.2 ⟨_, hm⟩
  simp only [step, receiveMessage, receiveYield, h, hs, ne_eq, not_true_eq_false, if_false, OPTION_PROGRESS, flag_eq, hp,
    Bool.false_eq_true, hc', if_true]; rfl

theorem yield_keyError (b : Dealer) (s : Int) (m : Yield) (p : PendingInvocation)
    (h : b.pendingCalls.get m.requestId.val = some p) (hs : s = p.calleeId)
    (hp : (PyDict.flag m.options "progress" && p.receiveProgress.truthy) = false)
    (hm : b.callToInvocationId.get (p.callerId, p.requestId.val) = none) :
    b.step (.receiveMessage s (.yield_ m)) = ({ b with pendingCalls := b.pendingCalls.del m.requestId.val }, .error .keyError) := by
  have hc' : b.callToInvocationId.contains (p.callerId, p.requestId.val) = false := Dict.not_contains_iff_get.2 hm
  simp only [step, receiveMessage, receiveYield, h, hs, ne_eq, not_true_eq_false, if_false, OPTION_PROGRESS, flag_eq, hp,
    Bool.false_eq_true, hc']; rfl

theorem yield_rejected (b : Dealer) (s : Int) (m : Yield)
    (h : ∀ p, b.pendingCalls.get m.requestId.val = some p → s ≠ p.calleeId) :
    ∃ msg, b.step (.receiveMessage s (.yield_ m)) = (b, .error (.valueError msg)) := by
  cases hp : b.pendingCalls.get m.requestId.val with
  | none => exact ⟨_, by simp only [step, receiveMessage, receiveYield, hp]; rfl⟩
  | some p => exact ⟨_, by simp only [step, receiveMessage, receiveYield, hp, h p hp, ne_eq, not_false_eq_true, if_true]; rfl⟩

theorem error_accepted (b : Dealer) (s : Int) (m : ErrorMsg) (p : PendingInvocation) (ht : m.messageType.val = 68)
    (h : b.pendingCalls.get m.requestId.val = some p) :
    b.step (.receiveMessage s (.error m)) = ({ b with pendingCalls := b.pendingCalls.del m.requestId.val },
      .ok (.reply ⟨.error ⟨.int 48, p.requestId, m.uri, m.args, m.kwargs, m.details⟩, p.callerId⟩)) := by
  have ht' : ¬ m.messageType.val ≠ Invocation.TYPE := by simp [Invocation.TYPE, ht]
  simp only [step, receiveMessage, receiveError, if_neg ht', h]; rfl

theorem error_rejected (b : Dealer) (s : Int) (m : ErrorMsg)
    (h : m.messageType.val ≠ 68 ∨ b.pendingCalls.get m.requestId.val = none) :
    ∃ msg, b.step (.receiveMessage s (.error m)) = (b, .error (.valueError msg)) := by
  simp only [step, receiveMessage, receiveError]
  by_cases ht : m.messageType.val ≠ Invocation.TYPE
  · rw [if_pos ht]; exact ⟨_, rfl⟩
  · rw [if_neg ht]
    rcases h with h | h
    · exact absurd h ht
    · rw [h]; exact ⟨_, rfl⟩

/-! ## One call -/

theorem other_message (b : Dealer) (s : Int) (m : Message) (h1 : ∀ x, m ≠ .call x) (h2 : ∀ x, m ≠ .yield_ x)
    (h3 : ∀ x, m ≠ .register x) (h4 : ∀ x, m ≠ .unregister x) (h5 : ∀ x, m ≠ .error x) :
    b.step (.receiveMessage s m) = (b, .error (.valueError "message type not supported")) := by
  cases m <;> first | rfl | (exfalso; first | exact h1 _ rfl | exact h2 _ rfl | exact h3 _ rfl | exact h4 _ rfl | exact h5 _ rfl)

/-- The kinds of step. -/
inductive Kind (b : Dealer) : Op → Dealer × Except Exc Out → Prop
  | fail (op msg) : Kind b op (b, .error (.valueError msg))
  | keyError (s m p) : b.pendingCalls.get m.requestId.val = some p → s = p.calleeId →
      (PyDict.flag m.options "progress" && p.receiveProgress.truthy) = false →
      b.callToInvocationId.get (p.callerId, p.requestId.val) = none →
      Kind b (.receiveMessage s (.yield_ m)) ({ b with pendingCalls := b.pendingCalls.del m.requestId.val }, .error .keyError)
  | add (d b') : b.registrationsBySession.get d.sessionId.val = none → b' = (b.addSession d).1 →
      Kind b (.addSession d) (b', .ok .unit)
  | remove (s d b') : b.registrationsBySession.get s = some d → b.removeSession s = (b', .ok ()) →
      Kind b (.removeSession s) (b', .ok .unit)
  | has (t) : Kind b (.hasRegistration t) (b, .ok (.bool (b.hasRegistration t)))
  | callNone (s m) : b.registrationsByProcedure.get m.procedure = none → Kind b (.receiveMessage s (.call m))
      (b, .ok (.reply ⟨.error ⟨.int Call.TYPE, m.requestId, "wamp.error.no_such_procedure", none, none, []⟩, s⟩))
  | callContinue (s m r c i) : b.registrationsByProcedure.get m.procedure = some r → (b.heap r).registrants = one c →
      PyDict.flag m.options "progress" = true → b.callToInvocationId.get (s, m.requestId.val) = some i →
      Kind b (.receiveMessage s (.call m)) (b, .ok (.reply ⟨.invocation (invocationFor m i (b.heap r).id), c⟩))
  | callNew (s m r c) : b.registrationsByProcedure.get m.procedure = some r → (b.heap r).registrants = one c →
      (PyDict.flag m.options "progress" = false ∨ b.callToInvocationId.get (s, m.requestId.val) = none) →
      Kind b (.receiveMessage s (.call m))
        ({ heap := b.heap
           nextRef := b.nextRef
           registrationsByProcedure := b.registrationsByProcedure
           registrationsBySession := b.registrationsBySession
           pendingCalls := b.pendingCalls.set b.idgen.next.2 (newEntry m s c)
           callToInvocationId := b.callToInvocationId.set (s, m.requestId.val) b.idgen.next.2
           sessions := b.sessions
           idgen := b.idgen.next.1 },
         .ok (.reply ⟨.invocation (invocationFor m b.idgen.next.2 (b.heap r).id), c⟩))
  | yieldProgress (s m p) : b.pendingCalls.get m.requestId.val = some p → s = p.calleeId →
      PyDict.flag m.options "progress" = true → p.receiveProgress.truthy = true →
      Kind b (.receiveMessage s (.yield_ m)) (b, .ok (.reply ⟨.result ⟨p.requestId, m.args, m.kwargs,
        [(.str "progress", (PyDict.get? m.options "progress").getD (.bool false))], none, none, false⟩, p.callerId⟩))
  | yieldFinal (s m p i) : b.pendingCalls.get m.requestId.val = some p → s = p.calleeId →
      (PyDict.flag m.options "progress" && p.receiveProgress.truthy) = false →
      b.callToInvocationId.get (p.callerId, p.requestId.val) = some i →
      Kind b (.receiveMessage s (.yield_ m))
        ({ heap := b.heap
           nextRef := b.nextRef
           registrationsByProcedure := b.registrationsByProcedure
           registrationsBySession := b.registrationsBySession
           pendingCalls := b.pendingCalls.del m.requestId.val
           callToInvocationId := b.callToInvocationId.del (p.callerId, p.requestId.val)
           sessions := b.sessions
           idgen := b.idgen }, .ok (.reply ⟨.result ⟨p.requestId, m.args, m.kwargs, [], none, none, false⟩, p.callerId⟩))
  | registerNew (s m d) : b.registrationsBySession.get s = some d → b.registrationsByProcedure.get m.procedure = none →
      Kind b (.receiveMessage s (.register m))
        ({ heap := fun r => if r = b.nextRef then ⟨b.idgen.next.2, m.procedure, one s⟩ else b.heap r
           nextRef := b.nextRef + 1
           registrationsByProcedure := b.registrationsByProcedure.set m.procedure b.nextRef
           registrationsBySession := b.registrationsBySession.set s (d.set b.idgen.next.2 b.nextRef)
           pendingCalls := b.pendingCalls
           callToInvocationId := b.callToInvocationId
           sessions := b.sessions
           idgen := b.idgen.next.1 }, .ok (.reply ⟨.registered ⟨m.requestId, .int b.idgen.next.2⟩, s⟩))
  | registerTaken (s m d r) : b.registrationsBySession.get s = some d → b.registrationsByProcedure.get m.procedure = some r →
      Kind b (.receiveMessage s (.register m)) (b, .ok (.reply ⟨.error ⟨.int Register.TYPE, m.requestId,
        "wamp.error.procedure_already_exists", none, none, []⟩, s⟩))
  | unregister (s m d r) : b.registrationsBySession.get s = some d → d.get m.registrationId.val = some r →
      Kind b (.receiveMessage s (.unregister m))
        ({ b.drop r with registrationsBySession := b.registrationsBySession.set s (d.del m.registrationId.val) },
          .ok (.reply ⟨.unregistered ⟨m.requestId⟩, s⟩))
  | error (s m p) : m.messageType.val = 68 → b.pendingCalls.get m.requestId.val = some p →
      Kind b (.receiveMessage s (.error m)) ({ b with pendingCalls := b.pendingCalls.del m.requestId.val },
        .ok (.reply ⟨.error ⟨.int 48, p.requestId, m.uri, m.args, m.kwargs, m.details⟩, p.callerId⟩))

/-- Every call is of one of these kinds. -/
theorem kind (b : Dealer) (hb : b.Wf) (op : Op) : Kind b op (b.step op) := by
  cases op with
  | addSession d =>
    cases h : b.registrationsBySession.get d.sessionId.val with
    | none =>
      have : b.step (.addSession d) = ((b.addSession d).1, .ok .unit) := by
        simp only [step, addSession, Dict.contains, h]; rfl
      rw [this]; exact .add d _ h rfl
    | some x =>
      have : b.step (.addSession d) = (b, .error (.valueError "cannot add session twice")) := by
        simp only [step, addSession, Dict.contains, h]; rfl
      rw [this]; exact .fail _ _
  | removeSession s =>
    cases h : b.registrationsBySession.get s with
    | none => simp only [step, removeSession, h]; exact .fail _ _
    | some d =>
      obtain ⟨b', k1, -⟩ := removeSession_ok b hb s d h
      have : b.step (.removeSession s) = (b', .ok .unit) := by simp only [step, k1]; rfl
      rw [this]; exact .remove s d b' h k1
  | hasRegistration t => exact .has t
  | receiveMessage s m =>
    cases m with
    | call m =>
      cases h : b.registrationsByProcedure.get m.procedure with
      | none => rw [call_none b s m h]; exact .callNone s m h
      | some r =>
        obtain ⟨-, ⟨c, hc⟩, -⟩ := hb.proc _ _ h
        cases hp : PyDict.flag m.options "progress" with
        | false => rw [call_new b s m r c h hc (.inl hp)]; exact .callNew s m r c h hc (.inl hp)
        | true =>
          cases hm : b.callToInvocationId.get (s, m.requestId.val) with
          | none => rw [call_new b s m r c h hc (.inr hm)]; exact .callNew s m r c h hc (.inr hm)
          | some i => rw [call_continue b s m r c i h hc hp hm]; exact .callContinue s m r c i h hc hp hm
    | yield_ m =>
      cases h : b.pendingCalls.get m.requestId.val with
      | none =>
        obtain ⟨msg, e⟩ := yield_rejected b s m (by intro p hp; rw [h] at hp; cases hp)
        rw [e]; exact .fail _ _
      | some p =>
        by_cases hs : s = p.calleeId
        · cases hp : (PyDict.flag m.options "progress" && p.receiveProgress.truthy) with
          | true =>
            rw [Bool.and_eq_true] at hp
            rw [yield_progress b s m p h hs hp.1 hp.2]; exact .yieldProgress s m p h hs hp.1 hp.2
          | false =>
            cases hm : b.callToInvocationId.get (p.callerId, p.requestId.val) with
            | none => rw [yield_keyError b s m p h hs hp hm]; exact .keyError s m p h hs hp hm
            | some i => rw [yield_final b s m p h hs hp i hm]; exact .yieldFinal s m p i h hs hp hm
        · obtain ⟨msg, e⟩ := yield_rejected b s m (by intro q hq; rw [h] at hq; cases hq; exact hs)
          rw [e]; exact .fail _ _
    | register m =>
      cases hs : b.registrationsBySession.get s with
      | none => simp only [step, receiveMessage, receiveRegister, hs]; exact .fail _ _
      | some d =>
        cases ht : b.registrationsByProcedure.get m.procedure with
        | none => simp only [step, receiveMessage, register_new b s m d hs ht]; exact .registerNew s m d hs ht
        | some r => simp only [step, receiveMessage, register_taken b s m d r hs ht]; exact .registerTaken s m d r hs ht
    | unregister m =>
      cases hs : b.registrationsBySession.get s with
      | none => simp only [step, receiveMessage, receiveUnregister, hs]; exact .fail _ _
      | some d =>
        cases hr : d.get m.registrationId.val with
        | none => simp only [step, receiveMessage, receiveUnregister, hs, hr]; exact .fail _ _
        | some r => simp only [step, receiveMessage, unregister_ok b hb s m d r hs hr]; exact .unregister s m d r hs hr
    | error m =>
      by_cases ht : m.messageType.val = 68
      · cases hp : b.pendingCalls.get m.requestId.val with
        | none => obtain ⟨msg, e⟩ := error_rejected b s m (.inr hp); rw [e]; exact .fail _ _
        | some p => rw [error_accepted b s m p ht hp]; exact .error s m p ht hp
      · obtain ⟨msg, e⟩ := error_rejected b s m (.inl ht); rw [e]; exact .fail _ _
    | _ => exact .fail _ _

end Wamp.Dealer
