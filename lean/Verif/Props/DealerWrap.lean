import Verif.Props.Dealer

/-!
# C38 beyond 2^53 ids

The bound on the number of ids in the dealer theorems cannot be dropped: once the generator has wrapped around, a CALL is
given the id of an invocation that is still waiting for its answer.  The earlier call is forgotten; the answer to it goes
to the later caller.
-/

namespace Wamp.Dealer
open Spec.Rpc

/-- The CALL used throughout. -/
def wrapCall : Call := ⟨.int 1, "p", none, none, [], none, none, false⟩

/-- Session 2 registers "p" (id 1), session 1 calls it (id 2). -/
def wrapHead : List Op :=
  [.addSession ⟨.int 1, "r", none, none⟩, .addSession ⟨.int 2, "r", none, none⟩, .addSession ⟨.int 3, "r", none, none⟩,
   .receiveMessage 2 (.register ⟨.int 1, "p", []⟩), .receiveMessage 1 (.call wrapCall)]

/-- Then session 3 calls it `n` times. -/
def wrapOps (n : Nat) : List Op := wrapHead ++ List.replicate n (.receiveMessage 3 (.call wrapCall))

theorem wrap_snoc (n : Nat) : wrapOps (n + 1) = wrapOps n ++ [.receiveMessage 3 (.call wrapCall)] := by
  rw [wrapOps, wrapOps, List.replicate_succ', List.append_assoc]

/-- What stays the same while session 3 calls. -/
theorem wrap_state (n : Nat) : (after (wrapOps n)).idgen = IdGen.after (2 + n) ∧
    (after (wrapOps n)).registrationsByProcedure.get "p" = some 0 ∧ ((after (wrapOps n)).heap 0).registrants = one 2 := by
  induction n with
  | zero => exact ⟨rfl, rfl, rfl⟩
  | succ n ih =>
    obtain ⟨h1, h2, h3⟩ := ih
    rw [wrap_snoc, after_snoc, call_new _ 3 wrapCall 0 2 h2 h3 (.inl rfl), h1]
    exact ⟨rfl, h2, h3⟩

theorem wrap_outcome (n : Nat) : ∃ inv, outcome (wrapOps n) (.receiveMessage 3 (.call wrapCall)) =
    .ok (.reply ⟨.invocation inv, 2⟩) ∧ inv.requestId = .int (IdGen.draw (2 + n)) := by
  obtain ⟨h1, h2, h3⟩ := wrap_state n
  refine ⟨_, by rw [outcome, call_new _ 3 wrapCall 0 2 h2 h3 (.inl rfl)], ?_⟩
  rw [h1]; rfl

/-- Nothing but CALLs was turned into anything: no YIELD, no ERROR. -/
theorem wrap_unanswered (n : Nat) : ∀ e ∈ trace (wrapOps n), ∀ i, ¬ Answers e i := by
  induction n with
  | zero =>
    intro e he i
    have : trace (wrapOps 0) = trace wrapHead := by rw [wrapOps, List.replicate_zero, List.append_nil]
    rw [this] at he
    simp only [wrapHead, trace, runFrom, List.mem_cons, List.not_mem_nil, or_false] at he
    rintro (⟨s, y, out, h, -⟩ | ⟨s, m, out, h, -⟩) <;> rcases he with he | he | he | he | he <;> rw [h] at he <;> cases he
  | succ n ih =>
    intro e he i
    rw [wrap_snoc, trace_snoc, List.mem_append, List.mem_singleton] at he
    rcases he with he | rfl
    · exact ih e he i
    · rintro (⟨s, y, out, h, -⟩ | ⟨s, m, out, h, -⟩) <;> cases h

theorem wrap_invoked (n : Nat) : ∃ inv, (Op.receiveMessage 1 (.call wrapCall), Except.ok (Out.reply ⟨.invocation inv, 2⟩)) ∈
    trace (wrapOps n) ∧ inv.requestId = .int 2 := by
  induction n with
  | zero => exact ⟨⟨.int 2, .int 1, none, none, [], none, none, false⟩, by decide, rfl⟩
  | succ n ih =>
    obtain ⟨inv, h, e⟩ := ih
    exact ⟨inv, by rw [wrap_snoc, trace_snoc]; exact List.mem_append_left _ h, e⟩

/-- After `2^53` ids: session 1 has called, its INVOCATION has not been answered, and another CALL, of session 3, becomes an
INVOCATION with the same id to the same callee.  The callee's answer for that id then goes to session 3, and after that no
answer for it is accepted from anybody: session 1 gets none. -/
theorem C38_fails_after_wrap :
    ∃ (ops : List Op) (m : Call) (inv inv' : Invocation), PyDict.flag m.options "progress" = false ∧
      (Op.receiveMessage 1 (.call m), Except.ok (Out.reply ⟨.invocation inv, 2⟩)) ∈ trace ops ∧
      (∀ e ∈ trace ops, ∀ i, ¬ Answers e i) ∧
      outcome ops (.receiveMessage 3 (.call m)) = .ok (.reply ⟨.invocation inv', 2⟩) ∧ inv'.requestId = inv.requestId ∧
      ∀ y : Yield, y.requestId.val = inv.requestId.val → PyDict.flag y.options "progress" = false →
        (∃ r, outcome (ops ++ [.receiveMessage 3 (.call m)]) (.receiveMessage 2 (.yield_ y)) = .ok (.reply ⟨.result r, 3⟩)) ∧
        ∀ s y', y'.requestId.val = inv.requestId.val → ∃ msg,
          outcome (ops ++ [.receiveMessage 3 (.call m), .receiveMessage 2 (.yield_ y)]) (.receiveMessage s (.yield_ y')) =
            .error (.valueError msg) := by
  have hid : IdGen.draw (2 + (2 ^ 53 - 1)) = 2 := by rw [draw_eq]; omega
  revert hid
  generalize 2 ^ 53 - 1 = n
  intro hid
  obtain ⟨inv, h1, h2⟩ := wrap_invoked n
  obtain ⟨inv', h3, h4⟩ := wrap_outcome n
  refine ⟨wrapOps n, wrapCall, inv, inv', rfl, h1, wrap_unanswered n, h3, by rw [h4, h2, hid], ?_⟩
  intro y hy hp
  have h2' : inv.requestId.val = 2 := by rw [h2]; rfl
  rw [h2'] at hy
  obtain ⟨k1, k2, k3⟩ := wrap_state n
  have hcall := call_new _ 3 wrapCall 0 2 k2 k3 (.inl rfl)
  have hi : (after (wrapOps n)).idgen.next.2 = 2 := by rw [k1]; exact hid
  rw [hi] at hcall
  have hy' := yield_final ((after (wrapOps n)).step (.receiveMessage 3 (.call wrapCall))).1 2 y (newEntry wrapCall 3 2)
    (by rw [hcall, hy]; simp) rfl (by rw [hp]; rfl) 2 (by rw [hcall]; simp [newEntry])
  constructor
  · rw [outcome, after_snoc, hy']; exact ⟨_, rfl⟩
  · intro s y' e'
    rw [h2'] at e'
    have : wrapOps n ++ [.receiveMessage 3 (.call wrapCall), .receiveMessage 2 (.yield_ y)] =
      (wrapOps n ++ [.receiveMessage 3 (.call wrapCall)]) ++ [.receiveMessage 2 (.yield_ y)] := by simp
    have hnone : (after ((wrapOps n ++ [.receiveMessage 3 (.call wrapCall)]) ++ [.receiveMessage 2 (.yield_ y)])).pendingCalls.get
        y'.requestId.val = none := by
      rw [after_snoc, after_snoc, hy', hy, e']
      exact (Dict.get_del ..).trans (if_pos rfl)
    obtain ⟨msg, h⟩ := yield_rejected (after ((wrapOps n ++ [.receiveMessage 3 (.call wrapCall)]) ++
      [.receiveMessage 2 (.yield_ y)])) s y' (fun p hpp => by rw [hnone] at hpp; cases hpp)
    exact ⟨msg, by rw [this, outcome, h]⟩

end Wamp.Dealer
