import Verif.Spec.Slots
import Verif.Proofs.DealerView

/-! # `call_to_invocation_id` against the observed trace -/

namespace Wamp.Dealer
open Spec.Rpc

theorem not_calls_of_error {op : Op} {x : Exc} {s r : Int} :
    (¬ ∃ i, CallsAs (op, .error x) s r i) ∧ ¬ Settles (op, .error x) s r :=
  ⟨fun ⟨_, _, _, _, h, _⟩ => (by cases h), fun ⟨_, _, _, h, _⟩ => (by cases h)⟩

/-- One call: what becomes of the slot. -/
theorem slot_step (b : Dealer) (hb : b.Wf) (op : Op) (s r i : Int) :
    (b.step op).1.callToInvocationId.get (s, r) = some i ↔
      CallsAs (op, (b.step op).2) s r i ∨
        (b.callToInvocationId.get (s, r) = some i ∧
          ¬ ((∃ j, CallsAs (op, (b.step op).2) s r j) ∨ Settles (op, (b.step op).2) s r)) := by
  have hk := kind b hb op
  generalize hres : b.step op = res at hk ⊢
  have frame : ∀ {b' : Dealer} {e : Obs}, b'.callToInvocationId = b.callToInvocationId → (∀ j, ¬ CallsAs e s r j) →
      ¬ Settles e s r → (b'.callToInvocationId.get (s, r) = some i ↔ CallsAs e s r i ∨
        (b.callToInvocationId.get (s, r) = some i ∧ ¬ ((∃ j, CallsAs e s r j) ∨ Settles e s r))) := by
    intro b' e h1 h2 h3
    rw [h1]
    constructor
    · intro h; exact .inr ⟨h, fun h' => h'.elim (fun ⟨j, hj⟩ => h2 j hj) h3⟩
    · rintro (h | h)
      · exact absurd h (h2 i)
      · exact h.1
  cases hk with
  | fail e => exact frame rfl (fun j h => not_calls_of_error.1 ⟨j, h⟩) not_calls_of_error.2
  | keyError s' m p h1 h2 h3 h4 => exact frame rfl (fun j h => not_calls_of_error.1 ⟨j, h⟩) not_calls_of_error.2
  | add d b' h1 h2 =>
    have : b'.callToInvocationId = b.callToInvocationId := by
      rw [h2]; simp only [addSession, Dict.contains, h1]; rfl
    exact frame this (fun j ⟨_, _, _, h, _⟩ => by cases h) (fun ⟨_, _, _, h, _⟩ => by cases h)
  | remove s' d b' h1 h2 =>
    obtain ⟨b'', k1, k2, k3, k4, -⟩ := removeSession_ok b hb s' d h1
    rw [h2] at k1; injection k1 with k1; subst k1
    exact frame k4.2.1 (fun j ⟨_, _, _, h, _⟩ => by cases h) (fun ⟨_, _, _, h, _⟩ => by cases h)
  | has t => exact frame rfl (fun j ⟨_, _, _, h, _⟩ => by cases h) (fun ⟨_, _, _, h, _⟩ => by cases h)
  | callNone s' m h1 => exact frame rfl (fun j ⟨_, _, _, h, _⟩ => by cases h) (fun ⟨_, _, _, h, _⟩ => by cases h)
  | registerNew s' m d h1 h2 => exact frame rfl (fun j ⟨_, _, _, h, _⟩ => by cases h) (fun ⟨_, _, _, h, _⟩ => by cases h)
  | registerTaken s' m d r' h1 h2 => exact frame rfl (fun j ⟨_, _, _, h, _⟩ => by cases h) (fun ⟨_, _, _, h, _⟩ => by cases h)
  | unregister s' m d r' h1 h2 => exact frame rfl (fun j ⟨_, _, _, h, _⟩ => by cases h) (fun ⟨_, _, _, h, _⟩ => by cases h)
  | error s' m p h1 h2 => exact frame rfl (fun j ⟨_, _, _, h, _⟩ => by cases h) (fun ⟨_, _, _, h, _⟩ => by cases h)
  | yieldProgress s' m p h1 h2 h3 h4 =>
    refine frame rfl (fun j ⟨_, _, _, h, _⟩ => by cases h) ?_
    rintro ⟨_, _, _, h, _, hf⟩
    cases h
    have : ((PyDict.get? m.options "progress").getD (.bool false)).truthy = true := by rw [flag_eq]; exact h3
    simp [Result.details, withSerializer, PyDict.flag, PyDict.get?, this] at hf
  | callContinue s' m r' c j h1 h2 h3 h4 =>
    have hcalls : ∀ q k, CallsAs (.receiveMessage s' (.call m), .ok (.reply ⟨.invocation (invocationFor m j (b.heap r').id), c⟩)) q k i ↔
        q = s' ∧ k = m.requestId.val ∧ i = j := by
      intro q k
      constructor
      · rintro ⟨_, _, _, h, e1, e2⟩; cases h; exact ⟨rfl, e1.symm, e2.symm⟩
      · rintro ⟨rfl, rfl, rfl⟩; exact ⟨m, _, c, rfl, rfl, rfl⟩
    have hset : ¬ Settles (.receiveMessage s' (.call m), .ok (.reply ⟨.invocation (invocationFor m j (b.heap r').id), c⟩)) s r :=
      fun ⟨_, _, _, h, _⟩ => by cases h
    by_cases hk : (s', m.requestId.val) = (s, r)
    · injection hk with e1 e2; subst e1 e2
      rw [hcalls, h4]
      constructor
      · intro h; cases h; exact .inl ⟨rfl, rfl, rfl⟩
      · rintro (⟨-, -, rfl⟩ | ⟨h, -⟩)
        · rfl
        · exact h
    · have hno : ∀ k, ¬ CallsAs (.receiveMessage s' (.call m), .ok (.reply ⟨.invocation (invocationFor m j (b.heap r').id), c⟩)) s r k := by
        rintro k ⟨_, _, _, h, e1, -⟩; cases h; exact hk (by rw [e1])
      exact frame rfl hno hset
  | callNew s' m r' c h1 h2 h3 =>
    have hset : ¬ Settles (.receiveMessage s' (.call m),
        .ok (.reply ⟨.invocation (invocationFor m b.idgen.next.2 (b.heap r').id), c⟩)) s r :=
      fun ⟨_, _, _, h, _⟩ => by cases h
    simp only [Dict.get_set]
    by_cases hk : (s', m.requestId.val) = (s, r)
    · rw [if_pos hk]
      injection hk with e1 e2; subst e1 e2
      constructor
      · intro h; injection h with h; exact .inl ⟨m, _, c, rfl, rfl, h⟩
      · rintro (⟨_, _, _, h, -, e2⟩ | ⟨-, h⟩)
        · cases h; exact congrArg some e2
        · exact absurd (.inl ⟨_, m, _, c, rfl, rfl, rfl⟩) h
    · rw [if_neg hk]
      have hno : ∀ k, ¬ CallsAs (.receiveMessage s' (.call m),
          .ok (.reply ⟨.invocation (invocationFor m b.idgen.next.2 (b.heap r').id), c⟩)) s r k := by
        rintro k ⟨_, _, _, h, e1, -⟩; cases h; exact hk (by rw [e1])
      exact frame rfl hno hset
  | yieldFinal s' m p j h1 h2 h3 h4 =>
    have hno : ∀ k, ¬ CallsAs (.receiveMessage s' (.yield_ m),
        .ok (.reply ⟨.result ⟨p.requestId, m.args, m.kwargs, [], none, none, false⟩, p.callerId⟩)) s r k :=
      fun _ ⟨_, _, _, h, _⟩ => by cases h
    simp only [Dict.get_del]
    by_cases hk : (p.callerId, p.requestId.val) = (s, r)
    · rw [if_pos hk]
      injection hk with e1 e2; subst e1 e2
      constructor
      · intro h; cases h
      · rintro (h | ⟨-, h⟩)
        · exact absurd h (hno i)
        · exact absurd (.inr ⟨s', m, _, rfl, rfl, rfl⟩) h
    · rw [if_neg hk]
      refine frame rfl hno ?_
      rintro ⟨_, _, _, h, e1, -⟩; cases h; exact hk (by rw [← e1])

/-- The map holds, for a session and a request id, the invocation they stand for. -/
theorem slot_iff (ops : List Op) (s r i : Int) :
    (after ops).callToInvocationId.get (s, r) = some i ↔ Current (trace ops) s r i := by
  induction ops using snoc_induction with
  | nil =>
    constructor
    · intro h; simp [after, runFrom, init] at h
    · rintro ⟨pre, e, post, h, -⟩; simp [trace, runFrom] at h
  | snoc ops op ih =>
    rw [after_snoc, trace_snoc, slot_step _ (wf_after ops)]
    show _ ↔ ∃ pre e post, _ ∧ CallsAs e s r i ∧ ∀ e' ∈ post, ¬ ((∃ j, CallsAs e' s r j) ∨ Settles e' s r)
    rw [split_snoc (P := fun e => CallsAs e s r i) (Q := fun e' => ¬ ((∃ j, CallsAs e' s r j) ∨ Settles e' s r))]
    rw [ih]; rfl

theorem unsettled_iff (tr : List Obs) (s r : Int) : Unsettled tr s r ↔ ∃ i, Current tr s r i := by
  induction tr using snoc_induction with
  | nil =>
    constructor
    · rintro ⟨pre, e, post, h, -⟩; simp at h
    · rintro ⟨_, pre, e, post, h, -⟩; simp at h
  | snoc tr e ih =>
    have h1 : Unsettled (tr ++ [e]) s r ↔ (∃ i, CallsAs e s r i) ∨ (Unsettled tr s r ∧ ¬ Settles e s r) :=
      split_snoc (P := fun e => ∃ i, CallsAs e s r i) (Q := fun e' => ¬ Settles e' s r)
    have h2 : ∀ i, Current (tr ++ [e]) s r i ↔
        CallsAs e s r i ∨ (Current tr s r i ∧ ¬ ((∃ j, CallsAs e s r j) ∨ Settles e s r)) := fun i =>
      split_snoc (P := fun e => CallsAs e s r i) (Q := fun e' => ¬ ((∃ j, CallsAs e' s r j) ∨ Settles e' s r))
    rw [h1, ih]
    constructor
    · rintro (⟨i, h⟩ | ⟨⟨i, h⟩, h'⟩)
      · exact ⟨i, (h2 i).2 (.inl h)⟩
      · by_cases hc : ∃ j, CallsAs e s r j
        · obtain ⟨j, hj⟩ := hc; exact ⟨j, (h2 j).2 (.inl hj)⟩
        · exact ⟨i, (h2 i).2 (.inr ⟨h, fun h'' => h''.elim hc h'⟩)⟩
    · rintro ⟨i, h⟩
      rcases (h2 i).1 h with h | ⟨h, h'⟩
      · exact .inl ⟨i, h⟩
      · exact .inr ⟨⟨i, h⟩, fun h'' => h' (.inr h'')⟩

theorem slot_none (ops : List Op) (s r : Int) :
    (after ops).callToInvocationId.get (s, r) = none ↔ ¬ Unsettled (trace ops) s r := by
  rw [unsettled_iff]
  constructor
  · rintro h ⟨i, hi⟩; rw [(slot_iff ops s r i).2 hi] at h; cases h
  · intro h
    cases hg : (after ops).callToInvocationId.get (s, r) with
    | none => rfl
    | some i => exact absurd ⟨i, (slot_iff ops s r i).1 hg⟩ h

theorem slot_some (ops : List Op) (s r : Int) (h : Unsettled (trace ops) s r) :
    ∃ i, (after ops).callToInvocationId.get (s, r) = some i ∧ Current (trace ops) s r i := by
  obtain ⟨i, hi⟩ := (unsettled_iff _ _ _).1 h
  exact ⟨i, (slot_iff ops s r i).2 hi, hi⟩

end Wamp.Dealer
