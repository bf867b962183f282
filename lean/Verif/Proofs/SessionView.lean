import Verif.Proofs.SessionStep

/-! # The client session's data is a function of the observed history -/

namespace Wamp.WAMPSession
open Spec.Ses
variable {W : Type} (c : Codec W)

theorem runFrom_append (s : WAMPSession) (a b : List (Op W)) :
    runFrom c s (a ++ b) =
      ((runFrom c (runFrom c s a).1 b).1, (runFrom c s a).2 ++ (runFrom c (runFrom c s a).1 b).2) := by
  induction a generalizing s with
  | nil => rfl
  | cons op a ih => simp only [List.cons_append, runFrom, ih]

theorem after_snoc (ops : List (Op W)) (op : Op W) : after c (ops ++ [op]) = ((after c ops).step c op).1 := by
  simp [after, runFrom_append, runFrom]

theorem trace_snoc (ops : List (Op W)) (op : Op W) :
    trace c (ops ++ [op]) = trace c ops ++ [(op, outcome c ops op)] := by
  simp [trace, outcome, after, runFrom_append, runFrom]

theorem trace_ops (ops : List (Op W)) : (trace c ops).map (·.1) = ops := by
  induction ops using snoc_induction with
  | nil => rfl
  | snoc ops op ih => rw [trace_snoc, List.map_append, ih]; rfl

/-! ## One call -/

theorem step_incoming {s : WAMPSession} {op : Op W} {m : Message} (h : incoming c op = some m) :
    s.step c op = ((s.receiveMessage m).1, (s.receiveMessage m).2.map .msg) := by
  cases op with
  | sendMessage m => cases h
  | receiveMessage m' => injection h with h; subst h; rfl
  | receive d =>
    simp only [incoming] at h
    simp only [step, receive]
    cases hd : c.deserialize d with
    | error e => rw [hd] at h; cases h
    | ok m' => rw [hd] at h; injection h with h; subst h; rfl

theorem step_garbage {s : WAMPSession} {op : Op W} (h : incoming c op = none) (hs : ∀ m, op ≠ .sendMessage m) :
    (s.step c op).1 = s ∧ ∃ e, (s.step c op).2 = .error e := by
  cases op with
  | sendMessage m => exact absurd rfl (hs m)
  | receiveMessage m' => cases h
  | receive d =>
    simp only [incoming] at h
    simp only [step, receive]
    cases hd : c.deserialize d with
    | error e => exact ⟨rfl, e, rfl⟩
    | ok m' => rw [hd] at h; cases h

theorem map_msg_ok {r : Except Exc Message} : (∃ out, r.map (Out.msg (W := W)) = .ok out) ↔ ∃ m, r = .ok m := by
  cases r with
  | error e => exact ⟨(fun ⟨_, h⟩ => by cases h), (fun ⟨_, h⟩ => by cases h)⟩
  | ok m => exact ⟨fun _ => ⟨m, rfl⟩, fun _ => ⟨.msg m, rfl⟩⟩

/-- The three ways a call can go. -/
theorem op_cases (op : Op W) :
    (∃ m, op = .sendMessage m) ∨ (∃ m, incoming c op = some m ∧ ∀ m', op ≠ .sendMessage m') ∨
      (incoming c op = none ∧ ∀ m, op ≠ .sendMessage m) := by
  cases op with
  | sendMessage m => exact .inl ⟨m, rfl⟩
  | receiveMessage m => exact .inr (.inl ⟨m, rfl, fun _ h => by cases h⟩)
  | receive d =>
    cases h : incoming c (.receive d) with
    | none => exact .inr (.inr ⟨rfl, fun _ h => by cases h⟩)
    | some m => exact .inr (.inl ⟨m, rfl, fun _ h => by cases h⟩)

theorem requests_send {m : Message} {k i} : Requests (W := W) (.sendMessage m) k i ↔ requestOf m = some (k, i) :=
  ⟨fun ⟨m', h, h'⟩ => by injection h with h; subst h; exact h', fun h => ⟨m, rfl, h⟩⟩

theorem not_requests {op : Op W} {k i} (h : ∀ m, op ≠ .sendMessage m) : ¬ Requests op k i := fun ⟨m, e, _⟩ => h m e

theorem not_names {op : Op W} {k i t} (h : ∀ m, op ≠ .sendMessage m) : ¬ Names op k i t := by
  rintro (⟨_, m, e, _⟩ | ⟨_, m, e, _⟩) <;> exact h _ e

theorem not_answers {op : Op W} {i} (h : ∀ m, op ≠ .sendMessage m) : ¬ AnswersInvocation op i := by
  rintro (⟨m, e, _⟩ | ⟨m, e, _⟩) <;> exact h _ e

theorem replies_incoming {op : Op W} {m : Message} {k i} (h : incoming c op = some m) :
    Replies c op k i ↔ replyTo m = some (k, i) :=
  ⟨fun ⟨m', h', hr⟩ => by rw [h] at h'; injection h' with h'; subst h'; exact hr, fun hr => ⟨m, h, hr⟩⟩

theorem not_replies {op : Op W} {k i} (h : incoming c op = none) : ¬ Replies c op k i :=
  fun ⟨m, h', _⟩ => by rw [h] at h'; cases h'

theorem has_step (s : WAMPSession) (op : Op W) (k : Kind) (i : Int) :
    (s.step c op).1.has k i ↔ Requests op k i ∨ (s.has k i ∧ ¬ Replies c op k i) := by
  rcases op_cases c op with ⟨m, rfl⟩ | ⟨m, hm, hs⟩ | ⟨hn, hs⟩
  · rw [requests_send]
    have : ¬ Replies c (.sendMessage m) k i := not_replies c rfl
    simp only [this, not_false_eq_true, and_true]
    exact has_send c s m k i
  · rw [step_incoming c hm, replies_incoming c hm, has_recv]
    exact ⟨fun h => .inr h, fun h => h.resolve_left (not_requests hs)⟩
  · rw [(step_garbage c hn hs).1]
    exact ⟨fun h => .inr ⟨h, not_replies c hn⟩, fun h => (h.resolve_left (not_requests hs)).1⟩

theorem names_step (s : WAMPSession) (op : Op W) (k : Kind) (i t : Int) :
    (s.step c op).1.names k i t ↔ Names op k i t ∨ (s.names k i t ∧ (¬ Requests op k i ∧ ¬ Replies c op k i)) := by
  rcases op_cases c op with ⟨m, rfl⟩ | ⟨m, hm, hs⟩ | ⟨hn, hs⟩
  · rw [requests_send]
    have : ¬ Replies c (.sendMessage m) k i := not_replies c rfl
    simp only [this, not_false_eq_true, and_true]
    exact names_send c s m k i t
  · rw [step_incoming c hm, replies_incoming c hm, names_recv]
    exact ⟨fun h => .inr ⟨h.1, not_requests hs, h.2⟩, fun h => (h.resolve_left (not_names hs)).imp_right (·.2)⟩
  · rw [(step_garbage c hn hs).1]
    exact ⟨fun h => .inr ⟨h, not_requests hs, not_replies c hn⟩, fun h => (h.resolve_left (not_names hs)).1⟩

theorem has_after (ops : List (Op W)) (k : Kind) (i : Int) : (after c ops).has k i ↔ Outstanding c ops k i := by
  induction ops using snoc_induction with
  | nil =>
    constructor
    · intro h; cases k <;> cases h
    · rintro ⟨pre, op, post, h, _⟩; simp at h
  | snoc ops op ih =>
    rw [after_snoc, has_step, ih]
    unfold Outstanding
    exact (split_snoc (P := fun op => Requests op k i) (Q := fun op => ¬ Replies c op k i)).symm

theorem names_after (ops : List (Op W)) (k : Kind) (i t : Int) :
    (after c ops).names k i t ↔ Withdrawing c ops k i t := by
  induction ops using snoc_induction with
  | nil =>
    constructor
    · intro h; cases k <;> cases h
    · rintro ⟨pre, op, post, h, _⟩; simp at h
  | snoc ops op ih =>
    rw [after_snoc, names_step, ih]
    unfold Withdrawing
    exact (split_snoc (P := fun op => Names op k i t) (Q := fun op => ¬ Requests op k i ∧ ¬ Replies c op k i)).symm

theorem grants_step (ops : List (Op W)) (op : Op W) (k : Kind) (t : Int) :
    (after c (ops ++ [op])).grants k t ↔
      Grants c (op, outcome c ops op) k t ∨
        ((after c ops).grants k t ∧ ¬ Withdraws c (trace c ops) (op, outcome c ops op) k t) := by
  rw [after_snoc]
  rcases op_cases c op with ⟨m, rfl⟩ | ⟨m, hm, hs⟩ | ⟨hn, hs⟩
  · rw [show ((after c ops).step c (.sendMessage m)).1 = ((after c ops).sendMessage c m).1 from rfl, grants_send]
    constructor
    · refine fun h => .inr ⟨h, ?_⟩
      rintro ⟨_, _, ⟨_, m, h, _⟩ | ⟨_, m, h, _⟩⟩ <;> cases h
    · rintro (⟨_, _, ⟨_, m, h, _⟩ | ⟨_, m, h, _⟩⟩ | h)
      · cases h
      · cases h
      · exact h.1
  · have hout : (∃ out, outcome c ops op = .ok out) ↔ ∃ r, ((after c ops).receiveMessage m).2 = .ok r := by
      unfold outcome; rw [step_incoming c hm]; exact map_msg_ok
    rw [step_incoming c hm]
    unfold Grants Withdraws
    simp only [trace_ops, ← names_after, hm, Option.some.injEq]
    cases k with
    | subscribe =>
      simp only [grants, true_and, false_and, or_false, reduceCtorEq]
      rw [subs_recv, ← hout]
      simp only [exists_and_right]
    | register =>
      simp only [grants, true_and, false_and, false_or, reduceCtorEq]
      rw [regs_recv, ← hout]
      simp only [exists_and_right]
    | _ => simp [grants]
  · rw [(step_garbage c hn hs).1]
    constructor
    · refine fun h => .inr ⟨h, ?_⟩
      rintro ⟨_, _, ⟨_, m, h, _⟩ | ⟨_, m, h, _⟩⟩ <;> (rw [hn] at h; cases h)
    · rintro (⟨_, _, ⟨_, m, h, _⟩ | ⟨_, m, h, _⟩⟩ | h)
      · rw [hn] at h; cases h
      · rw [hn] at h; cases h
      · exact h.1

theorem grants_after (ops : List (Op W)) (k : Kind) (t : Int) :
    (after c ops).grants k t ↔ Granted c (trace c ops) k t := by
  induction ops using snoc_induction with
  | nil =>
    constructor
    · intro h; cases k <;> cases h
    · rintro ⟨pre, op, post, h, _⟩; simp [trace, runFrom] at h
  | snoc ops op ih =>
    rw [grants_step, ih, trace_snoc]
    unfold Granted
    exact (split_snoc_hist (P := fun e => Grants c e k t) (Q := fun tr e => ¬ Withdraws c tr e k t)).symm

theorem inv_step (ops : List (Op W)) (op : Op W) (i : Int) :
    i ∈ (after c (ops ++ [op])).invocationRequests ↔
      Invoked c (op, outcome c ops op) i ∨
        (i ∈ (after c ops).invocationRequests ∧ ¬ AnswersInvocation op i) := by
  rw [after_snoc]
  rcases op_cases c op with ⟨m, rfl⟩ | ⟨m, hm, hs⟩ | ⟨hn, hs⟩
  · rw [show ((after c ops).step c (.sendMessage m)).1 = ((after c ops).sendMessage c m).1 from rfl, inv_send]
    exact ⟨.inr, fun h => h.resolve_left (by rintro ⟨_, _, _, h, _⟩; cases h)⟩
  · have hout : (∃ out, outcome c ops op = .ok out) ↔ ∃ r, ((after c ops).receiveMessage m).2 = .ok r := by
      unfold outcome; rw [step_incoming c hm]; exact map_msg_ok
    rw [step_incoming c hm, inv_recv, ← hout]
    unfold Invoked
    simp only [hm, Option.some.injEq, not_answers hs, not_false_eq_true, and_true]
    grind
  · rw [(step_garbage c hn hs).1]
    refine ⟨fun h => .inr ⟨h, not_answers hs⟩, ?_⟩
    rintro (⟨_, _, _, h, _⟩ | h)
    · rw [hn] at h; cases h
    · exact h.1

theorem inv_after (ops : List (Op W)) (i : Int) :
    i ∈ (after c ops).invocationRequests ↔ Unanswered c (trace c ops) i := by
  induction ops using snoc_induction with
  | nil =>
    constructor
    · intro h; cases h
    · rintro ⟨pre, op, post, h, _⟩; simp [trace, runFrom] at h
  | snoc ops op ih =>
    rw [inv_step, ih, trace_snoc]
    unfold Unanswered
    exact (split_snoc (P := fun e => Invoked c e i) (Q := fun e => ¬ AnswersInvocation e.1 i)).symm

end Wamp.WAMPSession
