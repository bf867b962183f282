import Verif.Proofs.Slots
import Verif.Props.Dealer

/-!
# Exactly when answers and continuations work (C32, C37, C40, C45)

The four claims fail of the code for callers that reuse request ids or continue calls that are over.  Here the exact
conditions are proved, for every history and with no assumption on the clients.
-/

namespace Wamp.Dealer
open Spec.Rpc

/-- Whether the callee's YIELD for a pending call succeeds.  A progressive one the caller asked for always does; any other
succeeds exactly when the caller has had no final RESULT for that request id since its last CALL with it, and raises
`KeyError` otherwise. -/
theorem C32_exact (ops : List Op) (hd : (view (trace ops)).drawn < 2 ^ 53) (x : Pending)
    (hx : x ∈ (view (trace ops)).pending) (y : Yield) (hy : y.requestId.val = x.inv) :
    ((PyDict.flag y.options "progress" = true ∧ x.wantsProgress = true) ∨ Unsettled (trace ops) x.caller x.request.val →
      ∃ r, outcome ops (.receiveMessage x.callee (.yield_ y)) = .ok (.reply ⟨.result r, x.caller⟩) ∧
        r.requestId = x.request ∧ r.args = y.args ∧ r.kwargs = y.kwargs) ∧
    (¬ ((PyDict.flag y.options "progress" = true ∧ x.wantsProgress = true) ∨ Unsettled (trace ops) x.caller x.request.val) →
      outcome ops (.receiveMessage x.callee (.yield_ y)) = .error .keyError) := by
  have hc := (rel_after ops hd).2
  obtain ⟨p, hp, hxe⟩ := hc.sup x hx
  rw [← hy] at hp
  rw [hxe]
  simp only [entry]
  by_cases hpr : PyDict.flag y.options "progress" = true ∧ p.receiveProgress.truthy = true
  · have h := yield_progress (after ops) _ y p hp rfl hpr.1 hpr.2
    exact ⟨fun _ => ⟨_, by rw [outcome, h], rfl, rfl, rfl⟩, fun hn => absurd (.inl hpr) hn⟩
  · have hpf : (PyDict.flag y.options "progress" && p.receiveProgress.truthy) = false := by
      rw [Bool.eq_false_iff, ne_eq, Bool.and_eq_true]; exact hpr
    by_cases hu : Unsettled (trace ops) p.callerId p.requestId.val
    · obtain ⟨i, hi, -⟩ := slot_some ops _ _ hu
      have h := yield_final (after ops) _ y p hp rfl hpf _ hi
      exact ⟨fun _ => ⟨_, by rw [outcome, h], rfl, rfl, rfl⟩, fun hn => absurd (.inr hu) hn⟩
    · have h := yield_keyError (after ops) _ y p hp rfl hpf ((slot_none _ _ _).2 hu)
      exact ⟨fun h' => absurd h' (fun h' => h'.elim hpr hu), fun _ => by rw [outcome, h]⟩

/-- Exactly when a failure is not a `ValueError`: it is then the final YIELD, by its callee, of a pending call whose request
id has had a final RESULT since the caller last called with it.  It raises `KeyError`, and ends the call. -/
theorem C45_exact (ops : List Op) (hd : (view (trace ops)).drawn < 2 ^ 53) (op : Op) (e : Exc)
    (he : outcome ops op = .error e) :
    (¬ ∃ msg, e = .valueError msg) ↔
      ∃ x ∈ (view (trace ops)).pending, ∃ y : Yield, op = .receiveMessage x.callee (.yield_ y) ∧ y.requestId.val = x.inv ∧
        ¬ (PyDict.flag y.options "progress" = true ∧ x.wantsProgress = true) ∧
        ¬ Unsettled (trace ops) x.caller x.request.val ∧ e = .keyError ∧
        x ∉ (view (trace (ops ++ [op]))).pending := by
  have hc := (rel_after ops hd).2
  have hk := kind (after ops) (wf_after ops) op
  have he' : ((after ops).step op).2 = .error e := he
  rw [trace_snoc, view_snoc]
  rw [he']
  generalize hres : (after ops).step op = res at hk he'
  constructor
  · intro hne
    cases hk with
    | fail msg => cases he'; exact absurd ⟨_, rfl⟩ hne
    | keyError s y p h1 h2 h3 h4 =>
      cases he'
      refine ⟨entry y.requestId.val p, hc.pend _ _ h1, y, by rw [h2]; rfl, rfl, ?_, (slot_none _ _ _).1 h4, rfl, ?_⟩
      · intro h; rw [Bool.eq_false_iff, ne_eq, Bool.and_eq_true] at h3; exact h3 h
      · simp [View.next, entry]
    | _ => cases he'
  · rintro ⟨x, hx, y, -, -, -, -, rfl, -⟩ ⟨msg, h⟩; cases h

/-- Exactly when an INVOCATION can be answered at once by a final YIELD of the session it was sent to: when its id is new, or
when the call of that id is pending with that very session as callee.  Then the RESULT goes to the caller, for this
CALL's request id; otherwise the YIELD is refused with `ValueError`. -/
theorem C37_exact (ops : List Op) (hd : (view (trace ops)).drawn < 2 ^ 53) (s : Int) (m : Call)
    (inv : Invocation) (c : Int) (h : outcome ops (.receiveMessage s (.call m)) = .ok (.reply ⟨.invocation inv, c⟩))
    (y : Yield) (hy : y.requestId.val = inv.requestId.val) (hp : PyDict.flag y.options "progress" = false) :
    ((∀ e ∈ trace ops, ¬ Invokes e inv.requestId.val) ∨
        (∃ x ∈ (view (trace ops)).pending, x.inv = inv.requestId.val ∧ x.callee = c) →
      ∃ r, outcome (ops ++ [.receiveMessage s (.call m)]) (.receiveMessage c (.yield_ y)) = .ok (.reply ⟨.result r, s⟩) ∧
        r.requestId.val = m.requestId.val ∧ r.args = y.args ∧ r.kwargs = y.kwargs) ∧
    (¬ ((∀ e ∈ trace ops, ¬ Invokes e inv.requestId.val) ∨
        (∃ x ∈ (view (trace ops)).pending, x.inv = inv.requestId.val ∧ x.callee = c)) →
      ∃ msg, outcome (ops ++ [.receiveMessage s (.call m)]) (.receiveMessage c (.yield_ y)) = .error (.valueError msg)) := by
  have hc := (rel_after ops hd).2
  by_cases hnew : ∀ e ∈ trace ops, ¬ Invokes e inv.requestId.val
  · refine ⟨fun _ => ?_, fun hn => absurd (.inl hnew) hn⟩
    obtain ⟨r, h1, h2, h3, h4⟩ := C37_new_invocation_partial ops hd s m inv c h hnew y hy hp
    exact ⟨r, h1, by rw [h2], h3, h4⟩
  · obtain ⟨r, h1, h2, ⟨rfl, h3⟩ | ⟨-, i, h3, rfl, h4⟩⟩ := call_cases hd h
    · refine absurd ?_ hnew
      intro e he hi
      obtain ⟨x, hx, hxi⟩ := (issued_iff _ _).2 ⟨e, he, hi⟩
      have := hc.range x hx
      simp only [invocationFor, PyInt.val] at hxi; omega
    · have h5 : after (ops ++ [.receiveMessage s (.call m)]) = after ops := by rw [after_snoc]; exact h4
      have hii : (invocationFor m i ((after ops).heap r).id).requestId.val = i := rfl
      rw [hii] at hy ⊢
      rw [outcome, h5]
      obtain ⟨x', hx', e1, e2⟩ := hc.map _ _ h3
      injection e2 with e2 e3
      constructor
      · rintro (hn | ⟨x, hx, hxi, hxc⟩)
        · exact absurd hn hnew
        · have : x = x' := hc.inj _ (hc.sub _ hx) _ hx' (hxi.trans e1.symm)
          subst this
          obtain ⟨p, hpp, hxe⟩ := hc.sup x hx
          rw [hxi, ← hy] at hpp
          rw [hxe] at e2 e3 hxc
          simp only [entry] at e2 e3 hxc
          have := yield_final (after ops) c y p hpp hxc.symm (by rw [hp]; rfl) i (by rw [e2, e3]; exact h3)
          rw [this]
          exact ⟨⟨p.requestId, y.args, y.kwargs, [], none, none, false⟩, by rw [e2], e3, rfl, rfl⟩
      · intro hn
        obtain ⟨msg, hm⟩ := yield_rejected (after ops) c y (by
          intro p hpp hcs
          have := hc.pend _ _ hpp
          exact hn (.inr ⟨_, this, by simp only [entry]; exact hy, by simp only [entry]; exact hcs.symm⟩))
        exact ⟨msg, by rw [hm]⟩

/-- Exactly which INVOCATION a progressive CALL of a held procedure becomes: if the caller's request id stands for an
invocation, it is that one again and nothing changes — whether or not that call is still pending, and whoever holds the
procedure; otherwise it is a new one. -/
theorem C40_exact (ops : List Op) (hd : (view (trace ops)).drawn < 2 ^ 53) (s : Int) (m : Call)
    (hm : PyDict.flag m.options "progress" = true) (g : Reg) (hg : g ∈ (view (trace ops)).held)
    (hgp : g.procedure = m.procedure) :
    ∃ inv, outcome ops (.receiveMessage s (.call m)) = .ok (.reply ⟨.invocation inv, g.session⟩) ∧
      inv.registrationId = .int g.id ∧ inv.args = m.args ∧ inv.kwargs = m.kwargs ∧
      (∀ i, Current (trace ops) s m.requestId.val i →
        inv.requestId = .int i ∧ after (ops ++ [.receiveMessage s (.call m)]) = after ops) ∧
      (¬ Unsettled (trace ops) s m.requestId.val → ∀ e ∈ trace ops, ¬ Invokes e inv.requestId.val) := by
  obtain ⟨hr, hc⟩ := rel_after ops hd
  obtain ⟨c, p, rid⟩ := g
  simp only at hgp; subst hgp
  obtain ⟨r, e1, e2, e3⟩ := (hr.held _ _ _).1 hg
  cases hs : (after ops).callToInvocationId.get (s, m.requestId.val) with
  | some i =>
    have h := call_continue (after ops) s m r c i e1 e2 hm hs
    have hu := (slot_iff ops s m.requestId.val i).1 hs
    refine ⟨_, by rw [outcome, h], by simp [invocationFor, e3], rfl, rfl, ?_, ?_⟩
    · intro j hj
      rw [(slot_iff ops s m.requestId.val j).2 hj] at hs; injection hs with hs
      exact ⟨by rw [hs]; rfl, by rw [after_snoc, h]⟩
    · intro hn; exact absurd ((unsettled_iff _ _ _).2 ⟨i, hu⟩) hn
  | none =>
    have h := call_new (after ops) s m r c e1 e2 (.inr hs)
    refine ⟨_, by rw [outcome, h], by simp [invocationFor, e3], rfl, rfl, ?_, ?_⟩
    · intro j hj; rw [(slot_iff ops s m.requestId.val j).2 hj] at hs; cases hs
    · intro _ e he hi
      obtain ⟨x, hx, hxi⟩ := (issued_iff _ _).2 ⟨e, he, hi⟩
      have := hc.range x hx
      rw [hc.gen, idgen_next, draw_small hd] at hxi
      simp only [invocationFor, PyInt.val] at hxi; omega

/-! ## Cases -/

/-- In `reused` (session 1 calls twice with request id 1, the first call is answered) the second call is pending and its
request id is settled; in `reused` without the answer it is not. -/
example : (⟨3, 1, .int 1, 2, false⟩ : Pending) ∈ (view (trace reused)).pending ∧ ¬ Unsettled (trace reused) 1 1 ∧
    Unsettled (trace (reused.take 5)) 1 1 ∧ Current (trace (reused.take 5)) 1 1 3 := by
  refine ⟨by decide, ?_, ?_, ?_⟩
  · rw [← slot_none]; decide
  · rw [unsettled_iff]; exact ⟨3, (slot_iff _ _ _ _).1 (by decide)⟩
  · exact (slot_iff _ _ _ _).1 (by decide)

/-- In `progressive` request id 1 of session 1 stands for invocation 3; 2 is its callee and holds "p", 3 holds "q". -/
example : Current (trace progressive) 1 1 3 ∧ (⟨2, "p", 1⟩ : Reg) ∈ (view (trace progressive)).held ∧
    (⟨3, "q", 2⟩ : Reg) ∈ (view (trace progressive)).held ∧ ¬ Unsettled (trace progressive) 1 2 :=
  ⟨(slot_iff _ _ _ _).1 (by decide), by decide, by decide, (slot_none _ _ _).1 (by decide)⟩

/-- A continuation of "p" can be answered, one naming "q" cannot. -/
example :
    (∃ inv, outcome progressive (.receiveMessage 1 (.call ⟨.int 1, "p", none, none, [(.str "progress", .bool true)], none, none, false⟩)) =
      .ok (.reply ⟨.invocation inv, 2⟩) ∧ inv.requestId.val = 3) ∧
    (∃ inv, outcome progressive (.receiveMessage 1 (.call ⟨.int 1, "q", none, none, [(.str "progress", .bool true)], none, none, false⟩)) =
      .ok (.reply ⟨.invocation inv, 3⟩) ∧ inv.requestId.val = 3) ∧
    (∃ x ∈ (view (trace progressive)).pending, x.inv = 3 ∧ x.callee = 2) :=
  ⟨⟨_, rfl, rfl⟩, ⟨_, rfl, rfl⟩, ⟨3, 1, .int 1, 2, false⟩, by decide, rfl, rfl⟩

end Wamp.Dealer
