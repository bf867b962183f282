import Verif.Proofs.DealerView

/-!
# Dealer properties C30–C45

Histories are arbitrary finite lists of API calls (`Op`) made on a fresh dealer; `trace ops` is what was observed,
`view (trace ops)` is computed from that alone (`Spec/Dealer.lean`), and `outcome ops op` is what the call `op` returns or
raises when made after `ops`.  Ids are drawn from a counter that wraps after `2^53`; the theorems assume that it has not
wrapped, which every history shorter than `2^53` satisfies (`C30_ids_not_exhausted`).
-/

namespace Wamp.Dealer
open Spec.Rpc

/-! ## A worked history used by the examples -/

/-- Session 2 registers "p" and "q", session 3 registers "z"; 1 calls p and (accepting progressive results) q, 3 calls p;
the first of these calls is answered. -/
def demo : List Op :=
  [.addSession ⟨.int 1, "r", none, none⟩, .addSession ⟨.int 2, "r", none, none⟩, .addSession ⟨.int 3, "r", none, none⟩,
   .receiveMessage 2 (.register ⟨.int 1, "p", []⟩), .receiveMessage 2 (.register ⟨.int 2, "q", []⟩),
   .receiveMessage 3 (.register ⟨.int 1, "z", []⟩),
   .receiveMessage 1 (.call ⟨.int 1, "p", some [.int 7], none, [], none, none, false⟩),
   .receiveMessage 1 (.call ⟨.int 2, "q", none, none, [(.str "receive_progress", .bool true)], none, none, false⟩),
   .receiveMessage 3 (.call ⟨.int 1, "p", none, none, [], none, none, false⟩),
   .receiveMessage 2 (.yield_ ⟨.int 4, some [.int 8], none, [], none, none, false⟩)]

theorem demo_view : view (trace demo) =
    ⟨[1, 2, 3], [⟨2, "p", 1⟩, ⟨2, "q", 2⟩, ⟨3, "z", 3⟩],
     [⟨4, 1, .int 1, 2, false⟩, ⟨5, 1, .int 2, 2, true⟩, ⟨6, 3, .int 1, 2, false⟩],
     [⟨5, 1, .int 2, 2, true⟩, ⟨6, 3, .int 1, 2, false⟩], 6⟩ := by decide

/-! ## The hypothesis on ids -/

/-- Fewer than `2^53` calls never exhaust the ids. -/
theorem C30_ids_not_exhausted (ops : List Op) (h : ops.length < 2 ^ 53) : (view (trace ops)).drawn < 2 ^ 53 :=
  Nat.lt_of_le_of_lt (drawn_le_length ops) h

theorem demo_drawn : (view (trace demo)).drawn < 2 ^ 53 := C30_ids_not_exhausted _ (by decide)

/-! ## C30 -/

/-- What it means to be known: added, and not removed since. -/
theorem C30_known_iff (tr : List Obs) (s : Int) : s ∈ (view tr).known ↔
    ∃ pre e post, tr = pre ++ e :: post ∧ Joins e s ∧ ∀ e' ∈ post, ¬ Leaves e' s := known_iff tr s

/-- What it means to hold a registration: REGISTER was answered with its id, and since then it was neither unregistered
nor has its session left. -/
theorem C30_held_iff (tr : List Obs) (x : Reg) : x ∈ (view tr).held ↔
    ∃ pre e post, tr = pre ++ e :: post ∧ Registers e x ∧ ∀ e' ∈ post, ¬ Ends e' x := held_iff tr x

/-- At most one registration per procedure; ids of registrations are distinct. -/
theorem C30_exclusive (ops : List Op) (hd : (view (trace ops)).drawn < 2 ^ 53) (x y : Reg)
    (hx : x ∈ (view (trace ops)).held) (hy : y ∈ (view (trace ops)).held) (h : x.procedure = y.procedure ∨ x.id = y.id) :
    x = y := by
  have hr := (rel_after ops hd).1
  rcases h with h | h
  · obtain ⟨s, p, i⟩ := x
    obtain ⟨s', p', i'⟩ := y
    simp only at h; subst h
    obtain ⟨r, e1, e2, e3⟩ := (hr.held _ _ _).1 hx
    obtain ⟨r', e1', e2', e3'⟩ := (hr.held _ _ _).1 hy
    rw [e1] at e1'; cases e1'
    rw [e2] at e2'
    have := one_inj e2'; subst this
    rw [← e3, ← e3']
  · exact hr.inj x hx y hy h

theorem proc_none_iff {ops : List Op} (hd : (view (trace ops)).drawn < 2 ^ 53) (p : String) :
    (after ops).registrationsByProcedure.get p = none ↔ ∀ x ∈ (view (trace ops)).held, x.procedure ≠ p := by
  have hr := (rel_after ops hd).1
  constructor
  · rintro h ⟨s, p', i⟩ hx rfl
    obtain ⟨r, e1, -⟩ := (hr.held _ _ _).1 hx
    rw [h] at e1; cases e1
  · intro h
    cases hp : (after ops).registrationsByProcedure.get p with
    | none => rfl
    | some r =>
      obtain ⟨-, ⟨c, hc⟩, -⟩ := (wf_after ops).proc _ _ hp
      exact absurd rfl (h ⟨c, p, _⟩ ((hr.held _ _ _).2 ⟨r, hp, hc, rfl⟩))

theorem ses_none {ops : List Op} (hd : (view (trace ops)).drawn < 2 ^ 53) {s : Int} (hs : s ∉ (view (trace ops)).known) :
    (after ops).registrationsBySession.get s = none := by
  have hr := (rel_after ops hd).1
  cases h : (after ops).registrationsBySession.get s with
  | none => rfl
  | some d => exact absurd ((hr.known s).2 ⟨d, h⟩) hs

/-- REGISTER of a free procedure. -/
theorem C30_register_free (ops : List Op) (hd : (view (trace ops)).drawn < 2 ^ 53) (s : Int) (m : Register)
    (hs : s ∈ (view (trace ops)).known) (hf : ∀ x ∈ (view (trace ops)).held, x.procedure ≠ m.procedure) :
    ∃ i, outcome ops (.receiveMessage s (.register m)) = .ok (.reply ⟨.registered ⟨m.requestId, .int i⟩, s⟩) ∧
      (1 ≤ i ∧ i ≤ 2 ^ 53) ∧ (∀ x ∈ (view (trace ops)).held, x.id ≠ i) ∧
      (view (trace (ops ++ [.receiveMessage s (.register m)]))).held = (view (trace ops)).held ++ [⟨s, m.procedure, i⟩] ∧
      (view (trace (ops ++ [.receiveMessage s (.register m)]))).known = (view (trace ops)).known ∧
      (view (trace (ops ++ [.receiveMessage s (.register m)]))).pending = (view (trace ops)).pending := by
  obtain ⟨hr, hc⟩ := rel_after ops hd
  obtain ⟨d, h1⟩ := (hr.known s).1 hs
  have h2 := (proc_none_iff hd m.procedure).2 hf
  have hid : (after ops).idgen.next.2 = ((view (trace ops)).drawn : Int) + 1 := by rw [hc.gen, idgen_next, draw_small hd]
  have hout : ((after ops).step (.receiveMessage s (.register m))).2 =
      .ok (.reply ⟨.registered ⟨m.requestId, .int (after ops).idgen.next.2⟩, s⟩) := by
    simp only [step, receiveMessage, register_new _ s m d h1 h2]; rfl
  refine ⟨_, hout, ?_, ?_, ?_⟩
  · rw [hid]; omega
  · intro x hx e; have := hr.ids x hx; rw [hid] at e; omega
  · rw [trace_snoc, view_snoc, hout]; exact ⟨rfl, rfl, rfl⟩

/-- REGISTER of a procedure somebody holds. -/
theorem C30_register_taken (ops : List Op) (hd : (view (trace ops)).drawn < 2 ^ 53) (s : Int) (m : Register)
    (hs : s ∈ (view (trace ops)).known) (x : Reg) (hx : x ∈ (view (trace ops)).held) (hp : x.procedure = m.procedure) :
    (∃ e, outcome ops (.receiveMessage s (.register m)) = .ok (.reply ⟨.error e, s⟩) ∧ e.messageType = .int 64 ∧
      e.requestId = m.requestId ∧ e.uri = "wamp.error.procedure_already_exists") ∧
    after (ops ++ [.receiveMessage s (.register m)]) = after ops := by
  have hr := (rel_after ops hd).1
  obtain ⟨d, h1⟩ := (hr.known s).1 hs
  cases h2 : (after ops).registrationsByProcedure.get m.procedure with
  | none => exact absurd hp ((proc_none_iff hd _).1 h2 x hx)
  | some r =>
    rw [after_snoc]
    simp only [outcome, step, receiveMessage, register_taken _ s m d r h1 h2]
    exact ⟨⟨_, rfl, rfl, rfl, rfl⟩, trivial⟩

/-- REGISTER by an unknown session. -/
theorem C30_register_unknown (ops : List Op) (hd : (view (trace ops)).drawn < 2 ^ 53) (s : Int) (m : Register)
    (hs : s ∉ (view (trace ops)).known) :
    (∃ msg, outcome ops (.receiveMessage s (.register m)) = .error (.valueError msg)) ∧
    after (ops ++ [.receiveMessage s (.register m)]) = after ops := by
  rw [after_snoc]
  simp only [outcome, step, receiveMessage, receiveRegister, ses_none hd hs]
  exact ⟨⟨_, rfl⟩, trivial⟩

example : (1 : Int) ∈ (view (trace demo)).known ∧ (9 : Int) ∉ (view (trace demo)).known ∧
    (∀ x ∈ (view (trace demo)).held, x.procedure ≠ "free") ∧ ∃ x ∈ (view (trace demo)).held, x.procedure = "z" := by
  rw [demo_view]; decide

/-! ## C31 -/

/-- CALL of a procedure somebody holds. -/
theorem C31_call_routed (ops : List Op) (hd : (view (trace ops)).drawn < 2 ^ 53) (s : Int) (m : Call) (x : Reg)
    (hx : x ∈ (view (trace ops)).held) (hp : x.procedure = m.procedure) :
    (∃ inv, outcome ops (.receiveMessage s (.call m)) = .ok (.reply ⟨.invocation inv, x.session⟩) ∧
      inv.registrationId = .int x.id ∧ inv.args = m.args ∧ inv.kwargs = m.kwargs ∧
      inv.payload = m.payload ∧ inv.serializer = m.serializer ∧
      (1 ≤ inv.requestId.val ∧ inv.requestId.val ≤ 2 ^ 53) ∧
      (PyDict.get? inv.details_ "receive_progress" = if PyDict.flag m.options "receive_progress" then some (.bool true) else none) ∧
      (PyDict.get? inv.details_ "progress" = if PyDict.flag m.options "progress" then some (.bool true) else none)) ∧
    (view (trace (ops ++ [.receiveMessage s (.call m)]))).held = (view (trace ops)).held ∧
    (view (trace (ops ++ [.receiveMessage s (.call m)]))).known = (view (trace ops)).known := by
  obtain ⟨hr, hc⟩ := rel_after ops hd
  obtain ⟨c, p, rid⟩ := x
  simp only at hp; subst hp
  obtain ⟨r, e1, e2, e3⟩ := (hr.held _ _ _).1 hx
  have hdet : ∀ i, PyDict.get? (invocationFor m i rid).details_ "receive_progress" =
        (if PyDict.flag m.options "receive_progress" then some (.bool true) else none) ∧
      PyDict.get? (invocationFor m i rid).details_ "progress" =
        if PyDict.flag m.options "progress" then some (.bool true) else none := by
    intro i
    simp only [invocationFor, callDetails]
    cases PyDict.flag m.options "receive_progress" <;> cases PyDict.flag m.options "progress" <;> decide
  have hview : ∀ (v : View) i, (v.next (.receiveMessage s (.call m), .ok (.reply ⟨.invocation (invocationFor m i rid), c⟩))).held = v.held ∧
      (v.next (.receiveMessage s (.call m), .ok (.reply ⟨.invocation (invocationFor m i rid), c⟩))).known = v.known := by
    intro v i; simp only [View.next]; split <;> exact ⟨rfl, rfl⟩
  suffices H : ∃ i, (1 ≤ i ∧ i ≤ 2 ^ 53) ∧
      ((after ops).step (.receiveMessage s (.call m))).2 = .ok (.reply ⟨.invocation (invocationFor m i rid), c⟩) by
    obtain ⟨i, hi, h⟩ := H
    refine ⟨⟨invocationFor m i rid, h, rfl, rfl, rfl, rfl, rfl, hi, hdet i⟩, ?_⟩
    rw [trace_snoc, view_snoc, h]; exact hview _ i
  by_cases hn : PyDict.flag m.options "progress" = false ∨ (after ops).callToInvocationId.get (s, m.requestId.val) = none
  · refine ⟨_, ?_, by rw [call_new _ s m r c e1 e2 hn, e3]⟩
    rw [hc.gen, idgen_next, draw_small hd]; omega
  · rw [not_or] at hn
    cases hm : (after ops).callToInvocationId.get (s, m.requestId.val) with
    | none => exact absurd hm hn.2
    | some i =>
      refine ⟨i, ?_, by rw [call_continue _ s m r c i e1 e2 (by simpa using hn.1) hm, e3]⟩
      obtain ⟨x, hx, e, -⟩ := hc.map _ _ hm
      have := hc.range x hx; omega

/-- CALL of a procedure nobody holds. -/
theorem C31_call_no_such_procedure (ops : List Op) (hd : (view (trace ops)).drawn < 2 ^ 53) (s : Int) (m : Call)
    (hf : ∀ x ∈ (view (trace ops)).held, x.procedure ≠ m.procedure) :
    (∃ e, outcome ops (.receiveMessage s (.call m)) = .ok (.reply ⟨.error e, s⟩) ∧ e.messageType = .int 48 ∧
      e.requestId = m.requestId ∧ e.uri = "wamp.error.no_such_procedure") ∧
    after (ops ++ [.receiveMessage s (.call m)]) = after ops := by
  rw [after_snoc]
  have := call_none (after ops) s m ((proc_none_iff hd _).2 hf)
  simp only [outcome, this]
  exact ⟨⟨_, rfl, rfl, rfl, rfl⟩, trivial⟩

example : (⟨3, "z", 3⟩ : Reg) ∈ (view (trace demo)).held ∧ (∀ x ∈ (view (trace demo)).held, x.procedure ≠ "free") := by
  rw [demo_view]; decide

/-! ## C33 — yield authorisation; C35 — errors; C36 — at most one final outcome -/

/-- What it means for a call to be pending: an INVOCATION was emitted for it under an id not used before, and since then
it got no final RESULT or ERROR (and no YIELD for it made the dealer raise `KeyError`). -/
theorem C33_pending_iff (tr : List Obs) (x : Pending) : x ∈ (view tr).pending ↔
    ∃ pre e post, tr = pre ++ e :: post ∧ (Opens e x ∧ ∀ e' ∈ pre, ¬ Invokes e' x.inv) ∧
      ∀ e' ∈ post, ¬ (Final e' x.inv ∨ Crashes e' x.inv) := pending_iff tr x

/-- A YIELD for something that is not pending, or by anyone but its callee. -/
theorem C33_yield_authorisation (ops : List Op) (hd : (view (trace ops)).drawn < 2 ^ 53) (s : Int) (y : Yield)
    (h : ∀ x ∈ (view (trace ops)).pending, x.inv = y.requestId.val → x.callee ≠ s) :
    (∃ msg, outcome ops (.receiveMessage s (.yield_ y)) = .error (.valueError msg)) ∧
    after (ops ++ [.receiveMessage s (.yield_ y)]) = after ops := by
  have hc := (rel_after ops hd).2
  obtain ⟨msg, e⟩ := yield_rejected (after ops) s y (fun p hp e => h _ (hc.pend _ p hp) rfl e.symm)
  rw [after_snoc]; simp only [outcome, e]
  exact ⟨⟨msg, rfl⟩, trivial⟩

/-- Invocation 5 is pending at session 2: session 3 may not answer it; 4 is not pending: nobody may answer it. -/
example : (∀ x ∈ (view (trace demo)).pending, x.inv = 5 → x.callee ≠ 3) ∧
    (∀ x ∈ (view (trace demo)).pending, x.inv = 4 → x.callee ≠ 2) ∧ ∃ x ∈ (view (trace demo)).pending, x.inv = 5 := by
  rw [demo_view]; decide

/-- An ERROR for a pending invocation. -/
theorem C35_error_routed (ops : List Op) (hd : (view (trace ops)).drawn < 2 ^ 53) (s : Int) (m : ErrorMsg) (x : Pending)
    (hx : x ∈ (view (trace ops)).pending) (hm : m.messageType.val = 68) (hi : m.requestId.val = x.inv) :
    outcome ops (.receiveMessage s (.error m)) =
      .ok (.reply ⟨.error ⟨.int 48, x.request, m.uri, m.args, m.kwargs, m.details⟩, x.caller⟩) ∧
    (∀ z, z ∈ (view (trace (ops ++ [.receiveMessage s (.error m)]))).pending ↔ z ∈ (view (trace ops)).pending ∧ z ≠ x) := by
  have hc := (rel_after ops hd).2
  obtain ⟨p, hp, hxe⟩ := hc.sup x hx
  rw [← hi] at hp
  have h := error_accepted (after ops) s m p hm hp
  refine ⟨?_, ?_⟩
  · simp only [outcome, h]; rw [hxe]; rfl
  · rw [trace_snoc, view_snoc, h]
    intro z
    simp only [View.next, List.mem_filter, decide_eq_true_eq]
    constructor
    · rintro ⟨h1, h2⟩; exact ⟨h1, fun e => h2 (by rw [e, hi])⟩
    · rintro ⟨h1, h2⟩; exact ⟨h1, fun e => h2 (hc.inj z (hc.sub z h1) x (hc.sub x hx) (by rw [e, hi]))⟩

/-- An ERROR for something that is not pending, or for another kind of request. -/
theorem C35_error_rejected (ops : List Op) (hd : (view (trace ops)).drawn < 2 ^ 53) (s : Int) (m : ErrorMsg)
    (h : m.messageType.val ≠ 68 ∨ ∀ x ∈ (view (trace ops)).pending, x.inv ≠ m.requestId.val) :
    (∃ msg, outcome ops (.receiveMessage s (.error m)) = .error (.valueError msg)) ∧
    after (ops ++ [.receiveMessage s (.error m)]) = after ops := by
  have hc := (rel_after ops hd).2
  have h' : m.messageType.val ≠ 68 ∨ (after ops).pendingCalls.get m.requestId.val = none := by
    rcases h with h | h
    · exact .inl h
    · right
      cases hp : (after ops).pendingCalls.get m.requestId.val with
      | none => rfl
      | some p => exact absurd rfl (h _ (hc.pend _ _ hp))
  obtain ⟨msg, e⟩ := error_rejected (after ops) s m h'
  rw [after_snoc]; simp only [outcome, e]
  exact ⟨⟨msg, rfl⟩, trivial⟩

example : (⟨6, 3, .int 1, 2, false⟩ : Pending) ∈ (view (trace demo)).pending ∧
    ∀ x ∈ (view (trace demo)).pending, x.inv ≠ 4 := by rw [demo_view]; decide

/-- After the final outcome of an invocation, nothing is ever accepted for it again. -/
theorem C36_one_final_outcome (ops : List Op) (hd : (view (trace ops)).drawn < 2 ^ 53) (pre post : List Obs) (e : Obs)
    (i : Int) (ht : trace ops = pre ++ e :: post) (hf : Final e i) : ∀ e' ∈ post, ¬ Answers e' i := by
  -- once an issued id is no longer pending, it never becomes pending again, and what is not pending is not answered
  have key : ∀ ops : List Op, (view (trace ops)).drawn < 2 ^ 53 → ∀ pre e post, trace ops = pre ++ e :: post → Final e i →
      ((∃ x ∈ (view (trace ops)).issued, x.inv = i) ∧ ∀ x ∈ (view (trace ops)).pending, x.inv ≠ i) ∧
      ∀ e' ∈ post, ¬ Answers e' i := by
    intro ops
    induction ops using snoc_induction with
    | nil => intro _ pre e post h; simp [trace, runFrom] at h
    | snoc ops op ih =>
      intro hd pre e post ht hf
      have hd' : (view (trace ops)).drawn < 2 ^ 53 := by
        rw [trace_snoc, view_snoc] at hd; exact Nat.lt_of_le_of_lt (drawn_next_le _ _) hd
      have hc := (rel_after ops hd').2
      rw [trace_snoc] at ht
      rw [trace_snoc, view_snoc]
      -- an answer accepted now was for a pending call
      have hans : Answers (op, ((after ops).step op).2) i → ∃ x ∈ (view (trace ops)).pending, x.inv = i := by
        rintro (⟨s, y, out, e1, rfl⟩ | ⟨s, m, out, e1, rfl⟩)
        · injection e1 with e1 e2
          subst e1
          apply Classical.byContradiction
          intro hno
          obtain ⟨⟨msg, h⟩, -⟩ := C33_yield_authorisation ops hd' s y (fun x hx hi => absurd ⟨x, hx, hi⟩ hno)
          rw [outcome, e2] at h; cases h
        · injection e1 with e1 e2
          subst e1
          apply Classical.byContradiction
          intro hno
          obtain ⟨⟨msg, h⟩, -⟩ := C35_error_rejected ops hd' s m (.inr (fun x hx hi => absurd ⟨x, hx, hi⟩ hno))
          rw [outcome, e2] at h; cases h
      rcases List.eq_nil_or_concat post with rfl | ⟨post', z, rfl⟩
      · have h' := List.append_inj' ht rfl
        injection h'.2 with h2
        rw [← h2] at hf
        obtain ⟨x, hx, hi⟩ := hans (by
          rcases hf with ⟨s, y, r, c, e1, e2, -⟩ | h
          · exact .inl ⟨s, y, _, e1, e2⟩
          · exact .inr h)
        refine ⟨⟨(issued_next _ _ _).2 (.inl ⟨x, hc.sub x hx, hi⟩), ?_⟩, by simp⟩
        intro z hz hzi
        rw [pending_next] at hz
        rcases hz with ⟨-, hz⟩ | ⟨-, hz⟩
        · exact hz ⟨x, hc.sub x hx, hi.trans hzi.symm⟩
        · rw [hzi] at hz; exact hz (.inl hf)
      · have h2 : trace ops ++ [(op, ((after ops).step op).2)] = (pre ++ e :: post') ++ [z] := by simp [ht]
        have h' := List.append_inj' h2 rfl
        injection h'.2 with h3
        obtain ⟨⟨i1, i2⟩, i3⟩ := ih hd' pre e post' h'.1 hf
        refine ⟨⟨(issued_next _ _ _).2 (.inl i1), ?_⟩, ?_⟩
        · intro z hz hzi
          rw [pending_next] at hz
          rcases hz with ⟨-, hz⟩ | ⟨hz, -⟩
          · obtain ⟨x, hx, hi⟩ := i1; exact hz ⟨x, hx, hi.trans hzi.symm⟩
          · exact i2 z hz hzi
        · intro e' he'
          simp only [List.concat_eq_append, List.mem_append, List.mem_singleton] at he'
          rcases he' with he' | rfl
          · exact i3 e' he'
          · rw [← h3]; intro ha
            obtain ⟨x, hx, hi⟩ := hans ha
            exact i2 x hx hi
  exact (key ops hd pre e post ht hf).2

/-- In the worked history invocation 4 has its final outcome; a second YIELD and an ERROR for it are refused. -/
example : (∃ pre e post, trace demo = pre ++ e :: post ∧ Final e 4) ∧
    (∃ msg, outcome demo (.receiveMessage 2 (.yield_ ⟨.int 4, none, none, [], none, none, false⟩)) = .error (.valueError msg)) ∧
    (∃ msg, outcome demo (.receiveMessage 2 (.error ⟨.int 68, .int 4, "x", none, none, []⟩)) = .error (.valueError msg)) := by
  refine ⟨?_, ⟨_, rfl⟩, ⟨_, rfl⟩⟩
  exact ⟨(trace demo).dropLast, (trace demo).getLast (by decide), [], by decide, .inl ⟨2, _, _, 1, rfl, rfl, rfl⟩⟩

/-! ## C32 — result routing; C39 — progressive results -/

/-- What an accepted YIELD produces, for every history and every behaviour of the clients. -/
theorem C32_accepted_yield (ops : List Op) (hd : (view (trace ops)).drawn < 2 ^ 53) (s : Int) (y : Yield) (out : Out)
    (h : outcome ops (.receiveMessage s (.yield_ y)) = .ok out) :
    ∃ x ∈ (view (trace ops)).pending, x.inv = y.requestId.val ∧ x.callee = s ∧
      ∃ r, out = .reply ⟨.result r, x.caller⟩ ∧ r.requestId = x.request ∧ r.args = y.args ∧ r.kwargs = y.kwargs := by
  have hc := (rel_after ops hd).2
  have hk := kind (after ops) (wf_after ops) (.receiveMessage s (.yield_ y))
  rw [outcome] at h
  generalize hres : (after ops).step (.receiveMessage s (.yield_ y)) = res at hk h
  cases hk with
  | fail => cases h
  | keyError => cases h
  | yieldProgress s m p h1 h2 h3 h4 => cases h; exact ⟨_, hc.pend _ _ h1, rfl, h2.symm, _, rfl, rfl, rfl, rfl⟩
  | yieldFinal s m p i h1 h2 h3 h4 => cases h; exact ⟨_, hc.pend _ _ h1, rfl, h2.symm, _, rfl, rfl, rfl, rfl⟩

/-- The callee's YIELD for a pending call is accepted and becomes a RESULT for the caller, provided the caller has not
reused the request id of a pending call.  (What is missing: without that proviso the claim is false, see
`C32_fails_for_reused_request_id`.) -/
theorem C32_result_routing_partial (ops : List Op) (hd : (view (trace ops)).drawn < 2 ^ 53) (x : Pending)
    (hx : x ∈ (view (trace ops)).pending) (hn : NoReuse x.caller (trace ops)) (y : Yield) (hy : y.requestId.val = x.inv) :
    ∃ r, outcome ops (.receiveMessage x.callee (.yield_ y)) = .ok (.reply ⟨.result r, x.caller⟩) ∧
      r.requestId = x.request ∧ r.args = y.args ∧ r.kwargs = y.kwargs := by
  have hc := (rel_after ops hd).2
  have hf := full_after x.caller ops hd hn x hx rfl
  obtain ⟨p, hp, hxe⟩ := hc.sup x hx
  rw [← hy] at hp
  rw [hxe] at hf ⊢
  simp only [entry] at hf ⊢
  cases hpr : (PyDict.flag y.options "progress" && p.receiveProgress.truthy) with
  | true =>
    rw [Bool.and_eq_true] at hpr
    have h := yield_progress (after ops) _ y p hp rfl hpr.1 hpr.2
    exact ⟨_, by rw [outcome, h], rfl, rfl, rfl⟩
  | false =>
    have h := yield_final (after ops) _ y p hp rfl hpr _ hf
    exact ⟨_, by rw [outcome, h], rfl, rfl, rfl⟩

/-- `NoReuse` is not hard to meet: it holds if the session never calls with the same request id twice. -/
theorem C32_noReuse_of_distinct (s : Int) (ops : List Op)
    (h : ∀ pre m post, ops = pre ++ .receiveMessage s (.call m) :: post →
      ∀ m', .receiveMessage s (.call m') ∈ pre → m'.requestId.val ≠ m.requestId.val) : NoReuse s (trace ops) := by
  have ops_of : ∀ ops : List Op, (trace ops).map (·.1) = ops := by
    intro ops
    induction ops using snoc_induction with
    | nil => rfl
    | snoc ops op ih => rw [trace_snoc]; simp [ih]
  rintro pre ⟨op, res⟩ post ht hr
  unfold ReusesPending at hr
  split at hr
  · rename_i s' m inv c he
    cases he
    obtain ⟨rfl, -, x, hx, e1, e2⟩ := hr
    rw [pending_iff] at hx
    obtain ⟨pre', e, post', rfl, ⟨⟨m', i, rfl, -, e3, -⟩, -⟩, -⟩ := hx
    have h1 := ops_of ops
    rw [ht] at h1
    simp only [List.map_append, List.map_cons] at h1
    refine h _ m _ h1.symm m' ?_ ?_
    · simp [e1]
    · rw [e3, e2]
  · exact hr

/-- Sessions 1 and 3 both use request id 1, which is fine; 1 also has a second call pending. -/
theorem demo_noReuse (s : Int) : NoReuse s (trace demo) := by
  apply C32_noReuse_of_distinct
  intro pre m post h m' hm'
  have hl : pre.length ≤ 9 := by
    have := congrArg List.length h
    simp [demo] at this; omega
  have key : ∀ n ≤ 9, ∀ s m, (demo.drop n).head? = some (.receiveMessage s (.call m)) →
      ∀ o ∈ demo.take n, ∀ m', o = .receiveMessage s (.call m') → m'.requestId.val ≠ m.requestId.val := by
    intro n hn
    have : ∀ n ∈ List.range 10, ∀ s m, (demo.drop n).head? = some (.receiveMessage s (.call m)) →
        ∀ o ∈ demo.take n, ∀ m', o = .receiveMessage s (.call m') → m'.requestId.val ≠ m.requestId.val := by
      intro n hn
      simp only [List.range, List.range.loop, List.mem_cons, List.not_mem_nil, or_false] at hn
      rcases hn with rfl | rfl | rfl | rfl | rfl | rfl | rfl | rfl | rfl | rfl <;>
        intro s m h <;> simp [demo] at h <;> obtain ⟨rfl, rfl⟩ := h <;> simp [demo, PyInt.val]
    exact this n (by simp; omega)
  refine key pre.length hl s m ?_ _ (?_ : .receiveMessage s (.call m') ∈ _) m' rfl
  · rw [h]; simp
  · rw [h]; simpa using hm'

example : (⟨5, 1, .int 2, 2, true⟩ : Pending) ∈ (view (trace demo)).pending ∧ NoReuse 1 (trace demo) :=
  ⟨by rw [demo_view]; decide, demo_noReuse 1⟩

/-- Session 1 calls twice with the same request id; the first call is answered, then the second one. -/
def reused : List Op :=
  [.addSession ⟨.int 1, "r", none, none⟩, .addSession ⟨.int 2, "r", none, none⟩,
   .receiveMessage 2 (.register ⟨.int 1, "p", []⟩),
   .receiveMessage 1 (.call ⟨.int 1, "p", none, none, [], none, none, false⟩),
   .receiveMessage 1 (.call ⟨.int 1, "p", none, none, [], none, none, false⟩),
   .receiveMessage 2 (.yield_ ⟨.int 2, none, none, [], none, none, false⟩)]

/-- Without the proviso: the second call is pending, its callee answers, and the dealer raises `KeyError`. -/
theorem C32_fails_for_reused_request_id :
    ∃ x ∈ (view (trace reused)).pending, ∃ y : Yield, y.requestId.val = x.inv ∧
      outcome reused (.receiveMessage x.callee (.yield_ y)) = .error .keyError :=
  ⟨⟨3, 1, .int 1, 2, false⟩, by decide, ⟨.int 3, none, none, [], none, none, false⟩, rfl, rfl⟩

/-- A RESULT is marked progressive exactly when the YIELD is and the CALL asked for it.  In that case nothing changes, so
the call stays pending; otherwise the call is over and every further answer is refused. -/
theorem C39_progressive_results (ops : List Op) (hd : (view (trace ops)).drawn < 2 ^ 53) (s : Int) (y : Yield) (out : Out)
    (h : outcome ops (.receiveMessage s (.yield_ y)) = .ok out) :
    ∃ x ∈ (view (trace ops)).pending, x.inv = y.requestId.val ∧ ∃ r, out = .reply ⟨.result r, x.caller⟩ ∧
      (PyDict.flag r.details "progress" = true ↔ PyDict.flag y.options "progress" = true ∧ x.wantsProgress = true) ∧
      (PyDict.flag y.options "progress" = true ∧ x.wantsProgress = true →
        after (ops ++ [.receiveMessage s (.yield_ y)]) = after ops) ∧
      (¬ (PyDict.flag y.options "progress" = true ∧ x.wantsProgress = true) →
        (∀ s' y', y'.requestId.val = x.inv → ∃ msg,
          outcome (ops ++ [.receiveMessage s (.yield_ y)]) (.receiveMessage s' (.yield_ y')) = .error (.valueError msg)) ∧
        (∀ s' e, e.requestId.val = x.inv → ∃ msg,
          outcome (ops ++ [.receiveMessage s (.yield_ y)]) (.receiveMessage s' (.error e)) = .error (.valueError msg))) := by
  have hc := (rel_after ops hd).2
  have hk := kind (after ops) (wf_after ops) (.receiveMessage s (.yield_ y))
  simp only [after_snoc, outcome] at h ⊢
  generalize hres : (after ops).step (.receiveMessage s (.yield_ y)) = res at hk h ⊢
  cases hk with
  | fail => cases h
  | keyError => cases h
  | yieldProgress s m p h1 h2 h3 h4 =>
    cases h
    refine ⟨_, hc.pend _ _ h1, rfl, _, rfl, ?_, fun _ => rfl, fun hn => absurd ⟨h3, h4⟩ hn⟩
    have : PyDict.flag [(Value.str "progress", (PyDict.get? y.options "progress").getD (.bool false))] "progress" = true := by
      simp only [PyDict.flag, PyDict.get?, if_true]; rw [flag_eq]; exact h3
    exact ⟨fun _ => ⟨h3, h4⟩, fun _ => this⟩
  | yieldFinal s m p i h1 h2 h3 h4 =>
    cases h
    have hno : ¬ (PyDict.flag y.options "progress" = true ∧ p.receiveProgress.truthy = true) := by
      rw [← Bool.and_eq_true, h3]; simp
    refine ⟨_, hc.pend _ _ h1, rfl, _, rfl, ⟨(fun h => by cases h), fun h => absurd h hno⟩, fun h => absurd h hno, fun _ => ⟨?_, ?_⟩⟩
    · intro s' y' hy'
      simp only [entry] at hy'
      refine Exists.imp (fun msg e => congrArg Prod.snd e) (yield_rejected _ s' y' ?_)
      intro q hq; simp [hy'] at hq
    · intro s' e' he'
      simp only [entry] at he'
      refine Exists.imp (fun msg e => congrArg Prod.snd e) (error_rejected _ s' e' (.inr ?_))
      simp [he']

/-- A progressive YIELD for call 5 (which asked for progress) is marked; for call 6 (which did not) it is final. -/
example :
    (∃ r, outcome demo (.receiveMessage 2 (.yield_ ⟨.int 5, none, none, [(.str "progress", .bool true)], none, none, false⟩)) =
      .ok (.reply ⟨.result r, 1⟩) ∧ PyDict.flag r.details "progress" = true) ∧
    (∃ r, outcome demo (.receiveMessage 2 (.yield_ ⟨.int 6, none, none, [(.str "progress", .bool true)], none, none, false⟩)) =
      .ok (.reply ⟨.result r, 3⟩) ∧ PyDict.flag r.details "progress" = false) := ⟨⟨_, rfl, rfl⟩, ⟨_, rfl, rfl⟩⟩

/-! ## C34 — error authorisation: false of the code -/

/-- Any session at all, known or not, can end anybody's pending call with an ERROR. -/
theorem C34_error_authorisation_fails (ops : List Op) (hd : (view (trace ops)).drawn < 2 ^ 53) (x : Pending)
    (hx : x ∈ (view (trace ops)).pending) (s : Int) :
    ∃ m out, m.requestId.val = x.inv ∧ outcome ops (.receiveMessage s (.error m)) = .ok (.reply ⟨.error out, x.caller⟩) ∧
      x ∉ (view (trace (ops ++ [.receiveMessage s (.error m)]))).pending := by
  obtain ⟨h1, h2⟩ := C35_error_routed ops hd s ⟨.int 68, .int x.inv, "e", none, none, []⟩ x hx rfl rfl
  exact ⟨_, _, rfl, h1, fun h => ((h2 x).1 h).2 rfl⟩

/-- The claim itself, refuted: an ERROR by a session other than the callee is accepted. -/
theorem C34_not_authorised :
    ¬ ∀ (ops : List Op) (x : Pending) (s : Int) (m : ErrorMsg), x ∈ (view (trace ops)).pending → m.requestId.val = x.inv →
      s ≠ x.callee → ∃ e, outcome ops (.receiveMessage s (.error m)) = .error e := by
  intro h
  obtain ⟨e, he⟩ := h demo ⟨6, 3, .int 1, 2, false⟩ 99 ⟨.int 68, .int 6, "e", none, none, []⟩ (by rw [demo_view]; decide) rfl (by decide)
  cases he

/-- What does hold: an ERROR from anyone, for an invocation that is not pending at the given callee or at anybody else, is
rejected and changes nothing.  (Missing: rejection when the invocation is pending at another session.) -/
theorem C34_error_authorisation_partial (ops : List Op) (hd : (view (trace ops)).drawn < 2 ^ 53) (s : Int) (m : ErrorMsg)
    (h : ∀ x ∈ (view (trace ops)).pending, x.inv ≠ m.requestId.val) :
    (∃ msg, outcome ops (.receiveMessage s (.error m)) = .error (.valueError msg)) ∧
    after (ops ++ [.receiveMessage s (.error m)]) = after ops := C35_error_rejected ops hd s m (.inr h)

/-! ## C38 — fresh ids; C37 — every invocation can be answered; C40 — continuation -/

/-- The kinds of answers to a CALL, in terms of the view. -/
theorem call_cases {ops : List Op} (hd : (view (trace ops)).drawn < 2 ^ 53) {s : Int} {m : Call} {inv : Invocation} {c : Int}
    (h : outcome ops (.receiveMessage s (.call m)) = .ok (.reply ⟨.invocation inv, c⟩)) :
    ∃ r, (after ops).registrationsByProcedure.get m.procedure = some r ∧ ((after ops).heap r).registrants = one c ∧
      ((inv = invocationFor m ((view (trace ops)).drawn + 1) ((after ops).heap r).id ∧
        (PyDict.flag m.options "progress" = false ∨ (after ops).callToInvocationId.get (s, m.requestId.val) = none)) ∨
       (PyDict.flag m.options "progress" = true ∧ ∃ i, (after ops).callToInvocationId.get (s, m.requestId.val) = some i ∧
        inv = invocationFor m i ((after ops).heap r).id ∧
        ((after ops).step (.receiveMessage s (.call m))).1 = after ops)) := by
  have hc := (rel_after ops hd).2
  have hk := kind (after ops) (wf_after ops) (.receiveMessage s (.call m))
  rw [outcome] at h
  generalize hres : (after ops).step (.receiveMessage s (.call m)) = res at hk h ⊢
  cases hk with
  | fail => cases h
  | callNone => cases h
  | callContinue s m r c i h1 h2 h3 h4 => cases h; exact ⟨r, h1, h2, .inr ⟨h3, i, h4, rfl, rfl⟩⟩
  | callNew s m r c h1 h2 h3 =>
    cases h
    refine ⟨r, h1, h2, .inl ⟨?_, h3⟩⟩
    rw [hc.gen, idgen_next, draw_small hd]

/-- A non-progressive CALL gets an invocation id never used before, in particular one that is not pending. -/
theorem C38_fresh_invocation_id (ops : List Op) (hd : (view (trace ops)).drawn < 2 ^ 53) (s : Int) (m : Call)
    (hm : PyDict.flag m.options "progress" = false) (inv : Invocation) (c : Int)
    (h : outcome ops (.receiveMessage s (.call m)) = .ok (.reply ⟨.invocation inv, c⟩)) :
    (∀ e ∈ trace ops, ¬ Invokes e inv.requestId.val) ∧ ∀ x ∈ (view (trace ops)).pending, x.inv ≠ inv.requestId.val := by
  have hc := (rel_after ops hd).2
  have hno : ¬ ∃ x ∈ (view (trace ops)).issued, x.inv = inv.requestId.val := by
    rintro ⟨x, hx, e⟩
    obtain ⟨r, -, -, ⟨rfl, -⟩ | ⟨h', -⟩⟩ := call_cases hd h
    · have := hc.range x hx
      simp only [invocationFor, PyInt.val] at e; omega
    · rw [hm] at h'; cases h'
  refine ⟨?_, fun x hx e => hno ⟨x, hc.sub x hx, e⟩⟩
  intro e he hi
  exact hno ((issued_iff _ _).2 ⟨e, he, hi⟩)

example : ∃ inv c, outcome demo (.receiveMessage 1 (.call ⟨.int 9, "z", none, none, [], none, none, false⟩)) =
    .ok (.reply ⟨.invocation inv, c⟩) ∧ inv.requestId = .int 7 ∧ c = 3 := ⟨_, _, rfl, rfl, rfl⟩

/-- An INVOCATION with a new id can be answered at once: the callee's final YIELD is accepted and becomes the RESULT of
this very call.  (Missing: INVOCATIONs that continue an earlier one, see `C37_continuation_partial` and
`C37_fails_for_stale_continuation`.) -/
theorem C37_new_invocation_partial (ops : List Op) (hd : (view (trace ops)).drawn < 2 ^ 53) (s : Int) (m : Call)
    (inv : Invocation) (c : Int) (h : outcome ops (.receiveMessage s (.call m)) = .ok (.reply ⟨.invocation inv, c⟩))
    (hnew : ∀ e ∈ trace ops, ¬ Invokes e inv.requestId.val) (y : Yield) (hy : y.requestId.val = inv.requestId.val)
    (hp : PyDict.flag y.options "progress" = false) :
    ∃ r, outcome (ops ++ [.receiveMessage s (.call m)]) (.receiveMessage c (.yield_ y)) = .ok (.reply ⟨.result r, s⟩) ∧
      r.requestId = m.requestId ∧ r.args = y.args ∧ r.kwargs = y.kwargs := by
  have hc := (rel_after ops hd).2
  obtain ⟨r, h1, h2, ⟨rfl, h3⟩ | ⟨-, i, h3, rfl, -⟩⟩ := call_cases hd h
  · have hn := call_new (after ops) s m r c h1 h2 h3
    have hid : (after ops).idgen.next.2 = ((view (trace ops)).drawn : Int) + 1 := by rw [hc.gen, idgen_next, draw_small hd]
    have hy' : y.requestId.val = (after ops).idgen.next.2 := by rw [hid]; exact hy
    have hfin := yield_final ((after ops).step (.receiveMessage s (.call m))).1 c y (newEntry m s c)
      (by rw [hn]; simp [hy']) rfl (by rw [hp]; rfl) _ (by rw [hn]; simp [newEntry]; rfl)
    refine ⟨⟨m.requestId, y.args, y.kwargs, [], none, none, false⟩, ?_, rfl, rfl, rfl⟩
    rw [outcome, after_snoc, hfin]; rfl
  · obtain ⟨x, hx, e, -⟩ := hc.map _ _ h3
    obtain ⟨e', he', hi⟩ := (issued_iff _ _).1 ⟨x, hx, e⟩
    exact absurd hi (hnew e' he')

/-- In particular every INVOCATION for a non-progressive CALL can be answered at once. -/
theorem C37_plain_call_partial (ops : List Op) (hd : (view (trace ops)).drawn < 2 ^ 53) (s : Int) (m : Call)
    (hm : PyDict.flag m.options "progress" = false) (inv : Invocation) (c : Int)
    (h : outcome ops (.receiveMessage s (.call m)) = .ok (.reply ⟨.invocation inv, c⟩))
    (y : Yield) (hy : y.requestId.val = inv.requestId.val) (hp : PyDict.flag y.options "progress" = false) :
    ∃ r, outcome (ops ++ [.receiveMessage s (.call m)]) (.receiveMessage c (.yield_ y)) = .ok (.reply ⟨.result r, s⟩) ∧
      r.requestId = m.requestId ∧ r.args = y.args ∧ r.kwargs = y.kwargs :=
  C37_new_invocation_partial ops hd s m inv c h (C38_fresh_invocation_id ops hd s m hm inv c h).1 y hy hp

/-- A progressive CALL whose request id belongs to a pending call of the same caller (which does not reuse ids): it gets
the pending call's invocation id, nothing changes, and it is addressed to whoever holds the named procedure now.  (Missing
for C40: that this is the callee of the pending call, see `C40_fails_for_other_callee`.) -/
theorem C40_continuation_partial (ops : List Op) (hd : (view (trace ops)).drawn < 2 ^ 53) (x : Pending)
    (hx : x ∈ (view (trace ops)).pending) (hn : NoReuse x.caller (trace ops)) (m : Call)
    (hm : PyDict.flag m.options "progress" = true) (hi : m.requestId.val = x.request.val)
    (g : Reg) (hg : g ∈ (view (trace ops)).held) (hgp : g.procedure = m.procedure) :
    (∃ inv, outcome ops (.receiveMessage x.caller (.call m)) = .ok (.reply ⟨.invocation inv, g.session⟩) ∧
      inv.requestId = .int x.inv ∧ inv.registrationId = .int g.id ∧ inv.args = m.args ∧ inv.kwargs = m.kwargs) ∧
    after (ops ++ [.receiveMessage x.caller (.call m)]) = after ops ∧
    (g.session = x.callee → ∃ inv,
      outcome ops (.receiveMessage x.caller (.call m)) = .ok (.reply ⟨.invocation inv, x.callee⟩) ∧ inv.requestId = .int x.inv) := by
  obtain ⟨hr, hc⟩ := rel_after ops hd
  have hf := full_after x.caller ops hd hn x hx rfl
  obtain ⟨c, p, rid⟩ := g
  simp only at hgp; subst hgp
  obtain ⟨r, e1, e2, e3⟩ := (hr.held _ _ _).1 hg
  have h := call_continue (after ops) x.caller m r c x.inv e1 e2 hm (by rw [hi]; exact hf)
  rw [after_snoc]
  simp only [outcome, h]
  exact ⟨⟨_, rfl, rfl, by simp [invocationFor, e3], rfl, rfl⟩, trivial, fun e => ⟨_, by rw [← e], rfl⟩⟩

/-- A continuation addressed to the callee of the pending call can be answered at once. -/
theorem C37_continuation_partial (ops : List Op) (hd : (view (trace ops)).drawn < 2 ^ 53) (x : Pending)
    (hx : x ∈ (view (trace ops)).pending) (hn : NoReuse x.caller (trace ops)) (m : Call)
    (hm : PyDict.flag m.options "progress" = true) (hi : m.requestId.val = x.request.val) (inv : Invocation)
    (h : outcome ops (.receiveMessage x.caller (.call m)) = .ok (.reply ⟨.invocation inv, x.callee⟩))
    (y : Yield) (hy : y.requestId.val = inv.requestId.val) :
    ∃ r, outcome (ops ++ [.receiveMessage x.caller (.call m)]) (.receiveMessage x.callee (.yield_ y)) =
        .ok (.reply ⟨.result r, x.caller⟩) ∧ r.requestId = x.request ∧ r.args = y.args ∧ r.kwargs = y.kwargs := by
  have hf := full_after x.caller ops hd hn x hx rfl
  obtain ⟨r, h1, h2, ⟨-, h3⟩ | ⟨-, i, h3, rfl, h4⟩⟩ := call_cases hd h
  · rw [hm, hi, hf] at h3; simp at h3
  · rw [hi, hf] at h3; cases h3
    have h5 : after (ops ++ [.receiveMessage x.caller (.call m)]) = after ops := by rw [after_snoc]; exact h4
    rw [outcome, h5]
    exact C32_result_routing_partial ops hd x hx hn y hy

/-- Session 1 starts a progressive call of "p" (held by 2); 3 holds "q". -/
def progressive : List Op :=
  [.addSession ⟨.int 1, "r", none, none⟩, .addSession ⟨.int 2, "r", none, none⟩, .addSession ⟨.int 3, "r", none, none⟩,
   .receiveMessage 2 (.register ⟨.int 1, "p", []⟩), .receiveMessage 3 (.register ⟨.int 1, "q", []⟩),
   .receiveMessage 1 (.call ⟨.int 1, "p", none, none, [(.str "progress", .bool true)], none, none, false⟩)]

theorem progressive_noReuse : NoReuse 1 (trace progressive) := by
  apply C32_noReuse_of_distinct
  intro pre m post h m' hm'
  rcases pre with _ | ⟨a, _ | ⟨b, _ | ⟨c, _ | ⟨d, _ | ⟨e, _ | ⟨f, pre⟩⟩⟩⟩⟩⟩ <;> simp [progressive] at h
  obtain ⟨rfl, rfl, rfl, rfl, rfl, -⟩ := h
  simp at hm'

example : (⟨3, 1, .int 1, 2, false⟩ : Pending) ∈ (view (trace progressive)).pending ∧
    (⟨2, "p", 1⟩ : Reg) ∈ (view (trace progressive)).held ∧ NoReuse 1 (trace progressive) :=
  ⟨by decide, by decide, progressive_noReuse⟩

/-- C40 is false: a progressive CALL with the pending call's request id that names another procedure goes to the holder
of that procedure, under the invocation id of the first callee. -/
theorem C40_fails_for_other_callee :
    ∃ x ∈ (view (trace progressive)).pending, ∃ m inv c, PyDict.flag m.options "progress" = true ∧ m.requestId = x.request ∧
      outcome progressive (.receiveMessage x.caller (.call m)) = .ok (.reply ⟨.invocation inv, c⟩) ∧
      inv.requestId = .int x.inv ∧ c ≠ x.callee :=
  ⟨⟨3, 1, .int 1, 2, false⟩, by decide, ⟨.int 1, "q", none, none, [(.str "progress", .bool true)], none, none, false⟩, _, _,
    rfl, rfl, rfl, rfl, by decide⟩

/-- C37 is false: after an ERROR ended a progressive call, continuing it emits an INVOCATION under the dead id, and the
callee's YIELD for it is refused. -/
theorem C37_fails_for_stale_continuation :
    ∃ ops s m inv c y, NoReuse s (trace ops) ∧
      outcome ops (.receiveMessage s (.call m)) = .ok (.reply ⟨.invocation inv, c⟩) ∧
      y.requestId.val = inv.requestId.val ∧ PyDict.flag y.options "progress" = false ∧
      ∃ msg, outcome (ops ++ [.receiveMessage s (.call m)]) (.receiveMessage c (.yield_ y)) = .error (.valueError msg) := by
  refine ⟨progressive ++ [.receiveMessage 2 (.error ⟨.int 68, .int 3, "e", none, none, []⟩)], 1,
    ⟨.int 1, "p", none, none, [(.str "progress", .bool true)], none, none, false⟩, _, _,
    ⟨.int 3, none, none, [], none, none, false⟩, ?_, rfl, rfl, rfl, _, rfl⟩
  rw [trace_snoc]
  exact noReuse_snoc_mk progressive_noReuse (fun h => h)

/-! ## C41 -/

/-- UNREGISTER of a registration the session holds. -/
theorem C41_unregister_held (ops : List Op) (hd : (view (trace ops)).drawn < 2 ^ 53) (x : Reg)
    (hx : x ∈ (view (trace ops)).held) (m : Unregister) (hm : m.registrationId.val = x.id) :
    outcome ops (.receiveMessage x.session (.unregister m)) = .ok (.reply ⟨.unregistered ⟨m.requestId⟩, x.session⟩) ∧
    (∀ y, y ∈ (view (trace (ops ++ [.receiveMessage x.session (.unregister m)]))).held ↔ y ∈ (view (trace ops)).held ∧ y ≠ x) ∧
    (view (trace (ops ++ [.receiveMessage x.session (.unregister m)]))).known = (view (trace ops)).known ∧
    (view (trace (ops ++ [.receiveMessage x.session (.unregister m)]))).pending = (view (trace ops)).pending := by
  have hr := (rel_after ops hd).1
  obtain ⟨r, e1, e2, e3⟩ := (hr.held x.session x.procedure x.id).1 hx
  obtain ⟨d, k1, k2⟩ := hr.dict _ _ _ e1 e2
  rw [e3, ← hm] at k2
  have h : ((after ops).step (.receiveMessage x.session (.unregister m))).2 =
      .ok (.reply ⟨.unregistered ⟨m.requestId⟩, x.session⟩) := by
    simp only [step, receiveMessage, unregister_ok _ (wf_after ops) x.session m d r k1 k2]; rfl
  rw [trace_snoc, view_snoc, h]
  refine ⟨h, ?_, rfl, rfl⟩
  intro y
  simp only [View.next, List.mem_filter, decide_eq_true_eq]
  constructor
  · rintro ⟨h1, h2⟩; exact ⟨h1, fun e => h2 (by rw [e, hm]; exact ⟨rfl, rfl⟩)⟩
  · rintro ⟨h1, h2⟩; exact ⟨h1, fun e => h2 (hr.inj y h1 x hx (by rw [e.2, hm]))⟩

/-- UNREGISTER of anything else. -/
theorem C41_unregister_not_held (ops : List Op) (hd : (view (trace ops)).drawn < 2 ^ 53) (s : Int) (m : Unregister)
    (h : ∀ x ∈ (view (trace ops)).held, x.session = s → x.id ≠ m.registrationId.val) :
    (∃ msg, outcome ops (.receiveMessage s (.unregister m)) = .error (.valueError msg)) ∧
    after (ops ++ [.receiveMessage s (.unregister m)]) = after ops := by
  have hr := (rel_after ops hd).1
  have hw := wf_after ops
  rw [after_snoc]
  cases hs : (after ops).registrationsBySession.get s with
  | none => simp only [outcome, step, receiveMessage, receiveUnregister, hs]; exact ⟨⟨_, rfl⟩, trivial⟩
  | some d =>
    cases hd' : d.get m.registrationId.val with
    | none => simp only [outcome, step, receiveMessage, receiveUnregister, hs, hd']; exact ⟨⟨_, rfl⟩, trivial⟩
    | some r =>
      obtain ⟨g1, g2, g3⟩ := (hw.ses s d hs).2 _ _ hd'
      exact absurd g1 (h ⟨s, _, _⟩ ((hr.held _ _ _).2 ⟨r, g3, g2, rfl⟩) rfl)

example : (⟨2, "q", 2⟩ : Reg) ∈ (view (trace demo)).held ∧
    ∀ x ∈ (view (trace demo)).held, x.session = 2 → x.id ≠ 3 := by rw [demo_view]; decide

/-! ## C42, C43 -/

/-- `remove_session` of a known session. -/
theorem C42_remove_known (ops : List Op) (hd : (view (trace ops)).drawn < 2 ^ 53) (s : Int) (hs : s ∈ (view (trace ops)).known) :
    outcome ops (.removeSession s) = .ok .unit ∧
    (∀ s', s' ∈ (view (trace (ops ++ [.removeSession s]))).known ↔ s' ∈ (view (trace ops)).known ∧ s' ≠ s) ∧
    (∀ y, y ∈ (view (trace (ops ++ [.removeSession s]))).held ↔ y ∈ (view (trace ops)).held ∧ y.session ≠ s) := by
  obtain ⟨d, h⟩ := ((rel_after ops hd).1.known s).1 hs
  obtain ⟨b', k1, -⟩ := removeSession_ok _ (wf_after ops) s d h
  have h1 : ((after ops).step (.removeSession s)).2 = .ok .unit := by simp only [step, k1]; rfl
  rw [trace_snoc, view_snoc, h1]
  refine ⟨h1, ?_, ?_⟩ <;> intro y <;> simp [View.next]

/-- `remove_session` of an unknown session. -/
theorem C42_remove_unknown (ops : List Op) (hd : (view (trace ops)).drawn < 2 ^ 53) (s : Int) (hs : s ∉ (view (trace ops)).known) :
    (∃ msg, outcome ops (.removeSession s) = .error (.valueError msg)) ∧ after (ops ++ [.removeSession s]) = after ops := by
  rw [after_snoc]
  simp only [outcome, step, removeSession, ses_none hd hs]
  exact ⟨⟨_, rfl⟩, trivial⟩

/-- Once removed, a session is sent no INVOCATION, whatever the others do, until it is added again and registers again. -/
theorem C42_never_called (ops later : List Op) (s : Int) (hs : s ∈ (view (trace ops)).known)
    (hd : (view (trace (ops ++ .removeSession s :: later))).drawn < 2 ^ 53)
    (hl : (∀ d, .addSession d ∈ later → d.sessionId.val ≠ s) ∨ (∀ m, .receiveMessage s (.register m) ∉ later))
    (q : Int) (m : Call) (inv : Invocation) (c : Int)
    (hp : outcome (ops ++ .removeSession s :: later) (.receiveMessage q (.call m)) = .ok (.reply ⟨.invocation inv, c⟩)) :
    c ≠ s := by
  have mono : ∀ (ops : List Op) op, (view (trace (ops ++ [op]))).drawn < 2 ^ 53 → (view (trace ops)).drawn < 2 ^ 53 := by
    intro ops op h; rw [trace_snoc, view_snoc] at h; exact Nat.lt_of_le_of_lt (drawn_next_le _ _) h
  have key : ∀ later : List Op, (view (trace (ops ++ .removeSession s :: later))).drawn < 2 ^ 53 →
      ((∀ d, .addSession d ∈ later → d.sessionId.val ≠ s) ∨ (∀ m, .receiveMessage s (.register m) ∉ later)) →
      ((∀ d, .addSession d ∈ later → d.sessionId.val ≠ s) → s ∉ (view (trace (ops ++ .removeSession s :: later))).known) ∧
      ∀ y ∈ (view (trace (ops ++ .removeSession s :: later))).held, y.session ≠ s := by
    intro later
    induction later using snoc_induction with
    | nil =>
      intro hd _
      have := C42_remove_known ops (mono ops _ hd) s hs
      exact ⟨fun _ h => ((this.2.1 s).1 h).2 rfl, fun y hy => ((this.2.2 y).1 hy).2⟩
    | snoc later op ih =>
      intro hd hl
      have e : ops ++ .removeSession s :: (later ++ [op]) = (ops ++ .removeSession s :: later) ++ [op] := by simp
      rw [e] at hd ⊢
      have hl' : (∀ d, .addSession d ∈ later → d.sessionId.val ≠ s) ∨ (∀ m, .receiveMessage s (.register m) ∉ later) := by
        rcases hl with hl | hl
        · exact .inl fun d hd => hl d (by simp [hd])
        · exact .inr fun m hm => hl m (by simp [hm])
      obtain ⟨i1, i2⟩ := ih (mono _ _ hd) hl'
      have hk : (∀ d, .addSession d ∈ later ++ [op] → d.sessionId.val ≠ s) →
          s ∉ (view (trace ((ops ++ .removeSession s :: later) ++ [op]))).known := by
        intro hl hks
        rw [known_iff, trace_snoc] at hks
        rw [split_snoc (P := fun e => Joins e s) (Q := fun e' => ¬ Leaves e' s), ← known_iff] at hks
        rcases hks with ⟨d, out, e, hd⟩ | ⟨h1, -⟩
        · injection e with e1 e2
          exact hl d (by rw [← e1]; simp) hd
        · exact i1 (fun d hd => hl d (by simp [hd])) h1
      refine ⟨hk, ?_⟩
      rintro ⟨s', t, i⟩ hy rfl
      rcases hl with hl | hl
      · have hr := (rel_after _ hd).1
        obtain ⟨r, e1, e2, e3⟩ := (hr.held _ _ _).1 hy
        obtain ⟨d, k1, -⟩ := hr.dict _ _ _ e1 e2
        exact hk hl ((hr.known _).2 ⟨d, k1⟩)
      · rw [trace_snoc, view_snoc, held_next] at hy
        rcases hy with ⟨m, r, rec, e, -⟩ | ⟨h1, -⟩
        · injection e with e1 e2
          exact hl m (by rw [← e1]; simp)
        · exact i2 _ h1 rfl
  have hh := (key later hd hl).2
  obtain ⟨r, h1, h2, -⟩ := call_cases hd hp
  exact hh ⟨c, m.procedure, _⟩ (((rel_after _ hd).1.held _ _ _).2 ⟨r, h1, h2, rfl⟩)

/-- Session 2 leaves, 3 takes over "p": CALLs of "p" now reach 3. -/
example : (2 : Int) ∈ (view (trace demo)).known ∧ ∃ inv,
    outcome (demo ++ .removeSession 2 :: [.receiveMessage 3 (.register ⟨.int 5, "p", []⟩)])
      (.receiveMessage 1 (.call ⟨.int 9, "p", none, none, [], none, none, false⟩)) = .ok (.reply ⟨.invocation inv, 3⟩) :=
  ⟨by rw [demo_view]; decide, _, rfl⟩

/-- C43 is false, for every history: the calls pending on a departing callee stay pending — even an ERROR from a third
party is still turned into their outcome. -/
theorem C43_departed_callee_fails (ops : List Op) (hd : (view (trace ops)).drawn < 2 ^ 53) (x : Pending)
    (hx : x ∈ (view (trace ops)).pending) (hs : x.callee ∈ (view (trace ops)).known) (q : Int) :
    outcome ops (.removeSession x.callee) = .ok .unit ∧
    x ∈ (view (trace (ops ++ [.removeSession x.callee]))).pending ∧
    ∃ m out, m.requestId.val = x.inv ∧
      outcome (ops ++ [.removeSession x.callee]) (.receiveMessage q (.error m)) = .ok (.reply ⟨.error out, x.caller⟩) := by
  have h1 := (C42_remove_known ops hd _ hs).1
  have h1' : ((after ops).step (.removeSession x.callee)).2 = .ok .unit := h1
  have hv : view (trace (ops ++ [.removeSession x.callee])) =
      (view (trace ops)).next (.removeSession x.callee, .ok .unit) := by rw [trace_snoc, view_snoc, h1']
  have hp : x ∈ (view (trace (ops ++ [.removeSession x.callee]))).pending := by rw [hv]; exact hx
  refine ⟨h1, hp, ?_⟩
  obtain ⟨m, out, e1, e2, -⟩ := C34_error_authorisation_fails (ops ++ [.removeSession x.callee]) (by rw [hv]; exact hd) x hp q
  exact ⟨m, out, e1, e2⟩

example : ∃ x ∈ (view (trace demo)).pending, x.callee ∈ (view (trace demo)).known := by rw [demo_view]; decide

/-- What does hold: removing a session touches no pending call; in particular every call pending on another callee can
still be answered by it.
(Missing: the calls pending on the departed session are not settled.) -/
theorem C43_other_calls_unaffected_partial (ops : List Op) (hd : (view (trace ops)).drawn < 2 ^ 53) (s : Int) (x : Pending)
    (hx : x ∈ (view (trace ops)).pending) (hn : NoReuse x.caller (trace ops))
    (y : Yield) (hy : y.requestId.val = x.inv) :
    x ∈ (view (trace (ops ++ [.removeSession s]))).pending ∧
    ∃ r, outcome (ops ++ [.removeSession s]) (.receiveMessage x.callee (.yield_ y)) = .ok (.reply ⟨.result r, x.caller⟩) ∧
      r.requestId = x.request ∧ r.args = y.args ∧ r.kwargs = y.kwargs := by
  have hv : (view (trace (ops ++ [.removeSession s]))).pending = (view (trace ops)).pending ∧
      (view (trace (ops ++ [.removeSession s]))).drawn = (view (trace ops)).drawn := by
    rw [trace_snoc, view_snoc]
    cases ((after ops).step (.removeSession s)).2 <;> exact ⟨rfl, rfl⟩
  have hx' : x ∈ (view (trace (ops ++ [.removeSession s]))).pending := by rw [hv.1]; exact hx
  refine ⟨hx', C32_result_routing_partial _ (by rw [hv.2]; exact hd) x hx' ?_ y hy⟩
  rw [trace_snoc]; exact noReuse_snoc_mk hn (fun h => h)

/-! ## C44 -/

/-- `has_registration(p)` says whether a CALL of p is routed to a callee. -/
theorem C44_has_registration (ops : List Op) (p : String) :
    ∃ r, outcome ops (.hasRegistration p) = .ok (.bool r) ∧
      (∀ s m, m.procedure = p →
        (r = true ↔ ∃ inv c, outcome ops (.receiveMessage s (.call m)) = .ok (.reply ⟨.invocation inv, c⟩))) ∧
      ((view (trace ops)).drawn < 2 ^ 53 → (r = true ↔ ∃ x ∈ (view (trace ops)).held, x.procedure = p)) := by
  refine ⟨_, rfl, ?_, ?_⟩
  · rintro s m rfl
    have hk := kind (after ops) (wf_after ops) (.receiveMessage s (.call m))
    rw [outcome, hasRegistration, Dict.contains_iff_get]
    generalize hres : (after ops).step (.receiveMessage s (.call m)) = res at hk
    cases hk with
    | fail op msg =>
      exfalso
      cases h : (after ops).registrationsByProcedure.get m.procedure with
      | none => rw [call_none _ s m h] at hres; cases hres
      | some r =>
        obtain ⟨-, ⟨c, hc⟩, -⟩ := (wf_after ops).proc _ _ h
        by_cases hn : PyDict.flag m.options "progress" = false ∨ (after ops).callToInvocationId.get (s, m.requestId.val) = none
        · rw [call_new _ s m r c h hc hn] at hres; injection hres with _ h2; cases h2
        · rw [not_or] at hn
          cases hm : (after ops).callToInvocationId.get (s, m.requestId.val) with
          | none => exact absurd hm hn.2
          | some i => rw [call_continue _ s m r c i h hc (by simpa using hn.1) hm] at hres; injection hres with _ h2; cases h2
    | callNone s m h => simp [h]
    | callContinue s m r c i h1 h2 h3 h4 => simp [h1]
    | callNew s m r c h1 h2 h3 => simp [h1]
  · intro hd
    have := proc_none_iff hd p
    rw [hasRegistration, Dict.contains_iff_get]
    cases h : (after ops).registrationsByProcedure.get p with
    | none =>
      simp only [reduceCtorEq, exists_false, false_iff, not_exists, not_and]
      exact this.1 h
    | some r =>
      simp only [Option.some.injEq, exists_eq', true_iff]
      apply Classical.byContradiction
      intro hno
      rw [this.2 (fun x hx e => hno ⟨x, hx, e⟩)] at h; cases h

example : outcome demo (.hasRegistration "z") = .ok (.bool true) ∧
    outcome (demo ++ [.removeSession 3]) (.hasRegistration "z") = .ok (.bool false) := ⟨rfl, rfl⟩

/-! ## C45 — atomic failures -/

/-- For every history: a call that raises either raises `ValueError` and changes nothing — everything observed later is
what would have been observed without it — or it is a YIELD and raises `KeyError`. -/
theorem C45_failures (ops later : List Op) (op : Op) (e : Exc) (he : outcome ops op = .error e) :
    ((∃ msg, e = .valueError msg) ∧
      ∃ tl, trace (ops ++ later) = trace ops ++ tl ∧ trace (ops ++ op :: later) = trace ops ++ (op, .error e) :: tl) ∨
    (e = .keyError ∧ ∃ s y, op = .receiveMessage s (.yield_ y)) := by
  have hk := kind (after ops) (wf_after ops) op
  rw [outcome] at he
  generalize hres : (after ops).step op = res at hk he
  cases hk with
  | fail op msg =>
    cases he
    refine .inl ⟨⟨msg, rfl⟩, ((after ops).runFrom later).2, ?_, ?_⟩
    · simp only [trace, runFrom_append, after]
    · simp only [trace, runFrom_append, runFrom]
      have h' : ((init.runFrom ops).1).step op = ((init.runFrom ops).1, .error (.valueError msg)) := hres
      rw [h']; rfl
  | keyError s m p h1 h2 h3 h4 => cases he; exact .inr ⟨rfl, _, _, rfl⟩
  | _ => cases he

/-- If no caller reuses the request id of a pending call, all failures are atomic `ValueError`s.  (Missing: histories with
such a reuse, where the claim is false, see `C45_fails_for_reused_request_id`.) -/
theorem C45_failures_are_atomic_partial (ops later : List Op) (hd : (view (trace ops)).drawn < 2 ^ 53)
    (hn : ∀ s, NoReuse s (trace ops)) (op : Op) (e : Exc) (he : outcome ops op = .error e) :
    (∃ msg, e = .valueError msg) ∧
    ∃ tl, trace (ops ++ later) = trace ops ++ tl ∧ trace (ops ++ op :: later) = trace ops ++ (op, .error e) :: tl := by
  rcases C45_failures ops later op e he with h | ⟨rfl, s, y, rfl⟩
  · exact h
  · exfalso
    by_cases h : ∀ x ∈ (view (trace ops)).pending, x.inv = y.requestId.val → x.callee ≠ s
    · obtain ⟨⟨msg, h'⟩, -⟩ := C33_yield_authorisation ops hd s y h
      rw [he] at h'; cases h'
    · apply h
      intro x hx hi hs
      obtain ⟨r, h', -⟩ := C32_result_routing_partial ops hd x hx (hn _) y hi.symm
      rw [hs, he] at h'; cases h'

example : (∀ s, NoReuse s (trace demo)) ∧ (view (trace demo)).drawn < 2 ^ 53 ∧
    (∃ e, outcome demo (.addSession ⟨.int 1, "r", none, none⟩) = .error e) ∧
    (∃ e, outcome demo (.removeSession 9) = .error e) ∧
    (∃ e, outcome demo (.receiveMessage 1 (.unregister ⟨.int 1, .int 2⟩)) = .error e) ∧
    (∃ e, outcome demo (.receiveMessage 1 (.goodbye ⟨[], "x"⟩)) = .error e) ∧
    (∃ e, outcome demo (.receiveMessage 1 (.yield_ ⟨.int 5, none, none, [], none, none, false⟩)) = .error e) :=
  ⟨demo_noReuse, demo_drawn, ⟨_, rfl⟩, ⟨_, rfl⟩, ⟨_, rfl⟩, ⟨_, rfl⟩, ⟨_, rfl⟩⟩

/-- C45 is false: the dealer raises `KeyError`, and the failed call has had an effect — repeating it fails differently. -/
theorem C45_fails_for_reused_request_id :
    ∃ ops op, outcome ops op = .error .keyError ∧ ∃ msg, outcome (ops ++ [op]) op = .error (.valueError msg) :=
  ⟨reused, .receiveMessage 2 (.yield_ ⟨.int 3, none, none, [], none, none, false⟩), rfl, _, rfl⟩

end Wamp.Dealer
