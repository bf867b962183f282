import Verif.Props.Departed
import Verif.Props.Slots

/-!
# C34, C43, C86, C87 exactly: who can end a call with an ERROR, what the departure of a session means for pending calls, when the
dealer writes to nobody, and which request ids it remembers
-/

namespace Wamp.Dealer
open Wamp.Spec.Rpc

/-- C34 exactly: an ERROR is accepted if and only if it says that it answers an INVOCATION and that invocation is pending, whoever sends it:
outcome and the state after it do not depend on the sender. -/
theorem C34_exact (ops : List Op) (hd : (view (trace ops)).drawn < 2 ^ 53) (m : ErrorMsg) :
    (∀ s, (∃ out, outcome ops (.receiveMessage s (.error m)) = .ok out) ↔
      m.messageType.val = 68 ∧ ∃ x ∈ (view (trace ops)).pending, x.inv = m.requestId.val) ∧
    ∀ s s', outcome ops (.receiveMessage s (.error m)) = outcome ops (.receiveMessage s' (.error m)) ∧
      after (ops ++ [.receiveMessage s (.error m)]) = after (ops ++ [.receiveMessage s' (.error m)]) := by
  refine ⟨fun s => ⟨?_, ?_⟩, fun s s' => ⟨rfl, by rw [after_snoc, after_snoc]; rfl⟩⟩
  · rintro ⟨out, h⟩
    refine Classical.byContradiction fun hn => ?_
    obtain ⟨⟨msg, e⟩, -⟩ := C35_error_rejected ops hd s m (by
      by_cases hm : m.messageType.val = 68
      · exact .inr fun x hx hi => hn ⟨hm, x, hx, hi⟩
      · exact .inl hm)
    rw [e] at h; cases h
  · rintro ⟨hm, x, hx, hi⟩
    exact ⟨_, (C35_error_routed ops hd s m x hx hm hi.symm).1⟩

/-- A YIELD or an ERROR. -/
def Answer : Op → Prop
  | .receiveMessage _ (.yield_ _) => True
  | .receiveMessage _ (.error _) => True
  | _ => False

/-- What YIELD and ERROR look at. -/
def CallsAlike (b b' : Dealer) : Prop :=
  b.pendingCalls = b'.pendingCalls ∧ b.callToInvocationId = b'.callToInvocationId

theorem callsAlike_removeLoop (s : Int) : ∀ (l : List (Int × Ref)) (b : Dealer), CallsAlike (b.removeLoop s l).1 b
  | [], _ => ⟨rfl, rfl⟩
  | (_, reg) :: rest, b => by
    rw [removeLoop]
    split
    · exact ⟨rfl, rfl⟩
    · dsimp only
      split <;> split
      · exact ⟨rfl, rfl⟩
      · refine ⟨(callsAlike_removeLoop s rest _).1.trans ?_, (callsAlike_removeLoop s rest _).2.trans ?_⟩ <;> split <;> rfl
      · exact ⟨rfl, rfl⟩
      · refine ⟨(callsAlike_removeLoop s rest _).1.trans ?_, (callsAlike_removeLoop s rest _).2.trans ?_⟩ <;> split <;> rfl

theorem callsAlike_remove (b : Dealer) (s : Int) : CallsAlike (b.step (.removeSession s)).1 b := by
  show CallsAlike (b.removeSession s).1 b
  rw [removeSession]
  split
  · exact ⟨rfl, rfl⟩
  · rename_i regs _
    have h := callsAlike_removeLoop s regs.items { b with registrationsBySession := b.registrationsBySession.del s }
    dsimp only
    split
    · rename_i b' e he; rw [he] at h; exact h
    · rename_i b' he; rw [he] at h
      split <;> exact h

theorem callsAlike_answer {b b' : Dealer} (h : CallsAlike b b') {op : Op} (ha : Answer op) :
    (b.step op).2 = (b'.step op).2 ∧ CallsAlike (b.step op).1 (b'.step op).1 := by
  obtain ⟨h1, h2⟩ := h
  cases op with
  | receiveMessage s m =>
    cases m <;> first | exact ha.elim | skip
    · simp only [step, receiveMessage, receiveYield, h1, h2]
      split
      · exact ⟨rfl, h1, h2⟩
      · split
        · exact ⟨rfl, h1, h2⟩
        · split
          · exact ⟨rfl, h1, h2⟩
          · split
            · exact ⟨rfl, rfl, rfl⟩
            · exact ⟨rfl, rfl, rfl⟩
    · simp only [step, receiveMessage, receiveError, h1]
      split
      · exact ⟨rfl, h1, h2⟩
      · split
        · exact ⟨rfl, h1, h2⟩
        · exact ⟨rfl, rfl, h2⟩
  | _ => exact ha.elim

theorem callsAlike_answers : ∀ (l : List Op) {b b' : Dealer}, CallsAlike b b' → (∀ op ∈ l, Answer op) → (b.runFrom l).2 = (b'.runFrom l).2
  | [], _, _, _, _ => rfl
  | op :: l, b, b', h, ha => by
    obtain ⟨h1, h2⟩ := callsAlike_answer h (ha op List.mem_cons_self)
    have := callsAlike_answers l h2 fun o ho => ha o (List.mem_cons_of_mem _ ho)
    simp only [runFrom]
    rw [h1, this]

theorem runFrom_trace_append (b : Dealer) : ∀ l l' : List Op,
    (b.runFrom (l ++ l')).2 = (b.runFrom l).2 ++ ((b.runFrom l).1.runFrom l').2
  | [], _ => rfl
  | op :: l, l' => by simp only [List.cons_append, runFrom, runFrom_trace_append _ l l', List.cons_append]

/-- C43 exactly: as far as answers are concerned a session that leaves might as well have stayed. Whatever YIELDs and ERRORs follow,
from whomever, each has the outcome it would have had; in particular nobody is told that the callee is gone. -/
theorem C43_exact (ops : List Op) (s : Int) (answers : List Op) (ha : ∀ op ∈ answers, Answer op) :
    ∃ e tr, trace (ops ++ .removeSession s :: answers) = trace ops ++ (.removeSession s, e) :: tr ∧
      trace (ops ++ answers) = trace ops ++ tr ∧ ∀ m, e ≠ .ok (.reply m) := by
  refine ⟨outcome ops (.removeSession s), (((after ops).step (.removeSession s)).1.runFrom answers).2, ?_, ?_, ?_⟩
  · rw [trace, runFrom_trace_append]; rfl
  · rw [trace, runFrom_trace_append, callsAlike_answers answers (callsAlike_remove (after ops) s) ha]; rfl
  · intro m h
    simp only [outcome, step] at h
    cases hr : ((after ops).removeSession s).2 <;> rw [hr] at h <;> cases h

/-- The callee of invocation 5 leaves; then its YIELD is accepted, and a second one is not. -/
example : ∃ x ∈ (view (trace demo)).pending, x.callee = 2 ∧
    (((trace (demo ++ .removeSession 2 :: [.receiveMessage 2 (.yield_ ⟨.int x.inv, none, none, [], none, none, false⟩),
      .receiveMessage 2 (.yield_ ⟨.int x.inv, none, none, [], none, none, false⟩)])).drop (demo.length + 1)).map fun e => e.2.isOk) =
      [true, false] :=
  ⟨⟨6, 3, .int 1, 2, false⟩, by rw [demo_view]; decide, rfl, by decide +kernel⟩

/-- C86 exactly: the dealer asks for a message to be sent to a session that is not connected if and only if a session that is not
connected calls a procedure nobody has registered, or a call whose caller is not connected is answered: by a YIELD of its callee that
can be handled (C32_exact), or by an ERROR from anyone. -/
theorem C86_exact (ops : List Op) (hd : (view (trace ops)).drawn < 2 ^ 53) (op : Op) :
    (∃ m q, outcome ops op = .ok (.reply ⟨m, q⟩) ∧ q ∉ (view (trace ops)).known) ↔
      (∃ s call, op = .receiveMessage s (.call call) ∧ s ∉ (view (trace ops)).known ∧
        ∀ g ∈ (view (trace ops)).held, g.procedure ≠ call.procedure) ∨
      ∃ x ∈ (view (trace ops)).pending, x.caller ∉ (view (trace ops)).known ∧
        ((∃ y : Yield, op = .receiveMessage x.callee (.yield_ y) ∧ y.requestId.val = x.inv ∧
            ((PyDict.flag y.options "progress" = true ∧ x.wantsProgress = true) ∨ Unsettled (trace ops) x.caller x.request.val)) ∨
          ∃ s e, op = .receiveMessage s (.error e) ∧ e.messageType.val = 68 ∧ e.requestId.val = x.inv) := by
  obtain ⟨hr, hc⟩ := rel_after ops hd
  constructor
  · rintro ⟨m, q, h, hq⟩
    have hk := kind (after ops) (wf_after ops) op
    have h' : ((after ops).step op).2 = .ok (.reply ⟨m, q⟩) := h
    have yields : ∀ s (y : Yield) p, op = .receiveMessage s (.yield_ y) → (after ops).pendingCalls.get y.requestId.val = some p →
        s = p.calleeId → p.callerId ∉ (view (trace ops)).known →
        ∃ x ∈ (view (trace ops)).pending, x.caller ∉ (view (trace ops)).known ∧
          ((∃ y : Yield, op = .receiveMessage x.callee (.yield_ y) ∧ y.requestId.val = x.inv ∧
              ((PyDict.flag y.options "progress" = true ∧ x.wantsProgress = true) ∨ Unsettled (trace ops) x.caller x.request.val)) ∨
            ∃ s e, op = .receiveMessage s (.error e) ∧ e.messageType.val = 68 ∧ e.requestId.val = x.inv) := by
      intro s y p hop hp hs hn
      refine ⟨_, hc.pend _ p hp, hn, .inl ⟨y, by rw [hop, hs]; rfl, rfl, ?_⟩⟩
      refine Classical.byContradiction fun hno => ?_
      have := (C32_exact ops hd _ (hc.pend _ p hp) y rfl).2 hno
      rw [hop, hs] at h
      rw [show (entry y.requestId.val p).callee = p.calleeId from rfl] at this
      rw [h] at this; cases this
    generalize (after ops).step op = res at hk h'
    cases hk with
    | fail => cases h'
    | keyError => cases h'
    | add => cases h'
    | remove => cases h'
    | has => cases h'
    | callNone s m' h1 =>
      cases h'
      refine .inl ⟨_, m', rfl, hq, fun g hg e => ?_⟩
      obtain ⟨r, h2, -⟩ := (hr.held g.session g.procedure g.id).1 hg
      rw [e, h1] at h2; cases h2
    | callContinue s m' r c i h1 h2 _ _ =>
      cases h'
      obtain ⟨d, k, -⟩ := hr.dict _ _ _ h1 h2
      exact absurd ((hr.known _).2 ⟨d, k⟩) hq
    | callNew s m' r c h1 h2 _ =>
      cases h'
      obtain ⟨d, k, -⟩ := hr.dict _ _ _ h1 h2
      exact absurd ((hr.known _).2 ⟨d, k⟩) hq
    | yieldProgress s m' p h1 h2 => cases h'; exact .inr (yields _ _ p rfl h1 h2 hq)
    | yieldFinal s m' p i h1 h2 => cases h'; exact .inr (yields _ _ p rfl h1 h2 hq)
    | registerNew s m' d h1 => cases h'; exact absurd ((hr.known _).2 ⟨d, h1⟩) hq
    | registerTaken s m' d r h1 => cases h'; exact absurd ((hr.known _).2 ⟨d, h1⟩) hq
    | unregister s m' d r h1 => cases h'; exact absurd ((hr.known _).2 ⟨d, h1⟩) hq
    | error s m' p h0 h1 => cases h'; exact .inr ⟨_, hc.pend _ p h1, hq, .inr ⟨s, m', rfl, h0, rfl⟩⟩
  · rintro (⟨s, call, rfl, hs, hn⟩ | ⟨x, hx, hq, ⟨y, rfl, hy, hu⟩ | ⟨s, e, rfl, he, hi⟩⟩)
    · obtain ⟨⟨e, h, -⟩, -⟩ := C31_call_no_such_procedure ops hd s call hn
      exact ⟨_, _, h, hs⟩
    · obtain ⟨r, h, -⟩ := (C32_exact ops hd x hx y hy).1 hu
      exact ⟨_, _, h, hq⟩
    · exact ⟨_, _, (C35_error_routed ops hd s e x hx he hi).1, hq⟩

/-- C87 exactly: the request ids the dealer remembers are those of calls since which the caller has had no final RESULT under that id. -/
theorem C87_exact (ops : List Op) (s r : Int) : (after ops).callToInvocationId.contains (s, r) = true ↔ Unsettled (trace ops) s r := by
  have h := slot_none ops s r
  rw [Dict.contains_iff_get]
  constructor
  · rintro ⟨v, hv⟩
    refine Classical.byContradiction fun hn => ?_
    rw [h.2 hn] at hv; cases hv
  · intro hu
    cases hg : (after ops).callToInvocationId.get (s, r) with
    | none => exact absurd hu (h.1 hg)
    | some v => exact ⟨v, rfl⟩

/-- A stranger's call of an unknown procedure, and the answer to a caller that has left, are sent to nobody. -/
example : (∃ m q, outcome demo (.receiveMessage 77 (.call ⟨.int 1, "nobody's", none, none, [], none, none, false⟩)) = .ok (.reply ⟨m, q⟩) ∧
      q ∉ (view (trace demo)).known) ∧
    ∃ m q, outcome (demo ++ [.removeSession 3]) (.receiveMessage 2 (.yield_ ⟨.int 6, none, none, [], none, none, false⟩)) =
      .ok (.reply ⟨m, q⟩) ∧ q ∉ (view (trace (demo ++ [.removeSession 3]))).known := by
  constructor
  · exact ⟨_, 77, rfl, by rw [demo_view]; decide⟩
  · exact ⟨_, 3, rfl, by decide +kernel⟩

/-- In `demo` request 1 of session 3 is remembered, request 9 is not. -/
example : Unsettled (trace demo) 3 1 ∧ ¬ Unsettled (trace demo) 3 9 := by
  rw [← C87_exact, ← C87_exact]; decide +kernel

end Wamp.Dealer
