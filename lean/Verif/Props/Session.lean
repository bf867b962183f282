import Verif.Proofs.SessionView

/-!
# Client session properties C46–C52

Histories are arbitrary finite lists of API calls on a fresh `WAMPSession` with an arbitrary codec `c` (which may fail).
`outcome c ops op` is what the call `op` returns or raises when made after `ops`; `incoming c op` is the message a
`receive`/`receive_message` call hands to the session.  `Outstanding`, `Granted`, `Unanswered` are defined from the
history of calls alone (`Spec/Session.lean`).
-/

namespace Wamp.WAMPSession
open Spec.Ses
variable {W : Type} (c : Codec W)

/-! ## A worked history used by the examples -/

/-- A codec that transports the value itself. -/
def plainCodec : Codec Value := ⟨.ok, .ok⟩

/-- SUBSCRIBE 1 → subscription 7; REGISTER 2 → registration 9; CALL 3 unanswered; INVOCATION 11 unanswered;
UNSUBSCRIBE 4 of subscription 7 unanswered. -/
def demo : List (Op Value) :=
  [.sendMessage (.subscribe ⟨.int 1, "a", []⟩), .receiveMessage (.subscribed ⟨.int 1, .int 7⟩),
   .sendMessage (.register ⟨.int 2, "p", []⟩), .receiveMessage (.registered ⟨.int 2, .int 9⟩),
   .sendMessage (.call ⟨.int 3, "q", none, none, [], none, none, false⟩),
   .receiveMessage (.invocation ⟨.int 11, .int 9, none, none, [], none, none, false⟩),
   .sendMessage (.unsubscribe ⟨.int 4, .int 7⟩)]

theorem demo_call : Outstanding plainCodec demo .call 3 := (has_after plainCodec demo .call 3).1 (by decide)
theorem demo_unsubscribe : Withdrawing plainCodec demo .unsubscribe 4 7 := (names_after plainCodec demo .unsubscribe 4 7).1 rfl
theorem demo_sub : Granted plainCodec (trace plainCodec demo) .subscribe 7 :=
  (grants_after plainCodec demo .subscribe 7).1 (by decide)
theorem demo_reg : Granted plainCodec (trace plainCodec demo) .register 9 :=
  (grants_after plainCodec demo .register 9).1 (by decide)
theorem demo_inv : Unanswered plainCodec (trace plainCodec demo) 11 := (inv_after plainCodec demo 11).1 (by decide)

theorem noEffect_of {ops : List (Op W)} {op : Op W} (h : ((after c ops).step c op).1 = after c ops) : NoEffect c ops op := by
  intro more x
  have h1 : after c (ops ++ op :: more) = (runFrom c (after c (ops ++ [op])) more).1 := by
    rw [show ops ++ op :: more = (ops ++ [op]) ++ more by simp]
    simp only [after, runFrom_append]
  have h2 : after c (ops ++ more) = (runFrom c (after c ops) more).1 := by simp only [after, runFrom_append]
  unfold outcome
  rw [h1, h2, after_snoc, h]

theorem outcome_incoming {ops : List (Op W)} {op : Op W} {m : Message} (h : incoming c op = some m) :
    outcome c ops op = ((after c ops).receiveMessage m).2.map .msg := by
  unfold outcome; rw [step_incoming c h]

/-! ## C46 -/

/-- Every reply except UNREGISTERED and UNSUBSCRIBED — RESULT, REGISTERED, PUBLISHED, SUBSCRIBED and the ERRORs of all
six kinds — is accepted exactly when a request of that kind with that id is outstanding; otherwise ValueError, without
effect. -/
theorem C46_reply_iff_outstanding (ops : List (Op W)) (op : Op W) (m : Message) (k : Kind) (i : Int)
    (hm : incoming c op = some m) (hr : replyTo m = some (k, i))
    (h1 : ∀ u, m ≠ .unregistered u) (h2 : ∀ u, m ≠ .unsubscribed u) :
    (Outstanding c ops k i → outcome c ops op = .ok (.msg m)) ∧
    (¬ Outstanding c ops k i → (∃ t, outcome c ops op = .error (.valueError t)) ∧ NoEffect c ops op) := by
  have hp : plainReply m = true := by
    cases m <;> first | rfl | (cases hr; done) | exact absurd rfl (h1 _) | exact absurd rfl (h2 _) | skip
    simp only [replyTo] at hr
    simp only [plainReply]
    cases hk : kindOfCode _ with
    | none => rw [hk] at hr; cases hr
    | some k => rfl
  have := recv_plain (s := after c ops) hp hr
  rw [has_after] at this
  rw [outcome_incoming c hm]
  refine ⟨fun h => by rw [this.1 h]; rfl, fun h => ?_⟩
  obtain ⟨h3, t, h4⟩ := this.2 h
  exact ⟨⟨t, by rw [h4]; rfl⟩, noEffect_of c (by rw [step_incoming c hm]; exact h3)⟩

example : incoming plainCodec (.receiveMessage (.result ⟨.int 3, none, none, [], none, none, false⟩)) =
      some (.result ⟨.int 3, none, none, [], none, none, false⟩) ∧
    replyTo (.result ⟨.int 3, none, none, [], none, none, false⟩) = some (.call, 3) ∧
    Outstanding plainCodec demo .call 3 ∧ ¬ Outstanding plainCodec demo .call 11 :=
  ⟨rfl, rfl, demo_call, fun h => absurd ((has_after _ _ _ _).2 h) (by decide)⟩

/-- An UNSUBSCRIBED without an outstanding UNSUBSCRIBE is rejected with ValueError without effect; with one it is
accepted exactly when the subscription that request named is still granted. -/
theorem C46_unsubscribed (ops : List (Op W)) (op : Op W) (m : Unsubscribed) (hm : incoming c op = some (.unsubscribed m)) :
    (¬ Outstanding c ops .unsubscribe m.requestId.val →
      (∃ t, outcome c ops op = .error (.valueError t)) ∧ NoEffect c ops op) ∧
    (∀ t, Withdrawing c ops .unsubscribe m.requestId.val t →
      (Granted c (trace c ops) .subscribe t → outcome c ops op = .ok (.msg (.unsubscribed m))) ∧
      (¬ Granted c (trace c ops) .subscribe t → ∃ e, outcome c ops op = .error (.valueError e))) := by
  have := recv_unsubscribed (after c ops) m
  rw [has_after] at this
  rw [outcome_incoming c hm]
  refine ⟨fun h => ?_, fun t ht => ?_⟩
  · obtain ⟨h3, t, h4⟩ := this.1 h
    exact ⟨⟨t, by rw [h4]; rfl⟩, noEffect_of c (by rw [step_incoming c hm]; exact h3)⟩
  · have := this.2 t ((names_after c ops _ _ _).2 ht)
    rw [grants_after] at this
    exact ⟨fun h => by rw [this.1 h]; rfl, fun h => (this.2 h).imp fun e he => by rw [he]; rfl⟩

example : Withdrawing plainCodec demo .unsubscribe 4 7 ∧ Granted plainCodec (trace plainCodec demo) .subscribe 7 :=
  ⟨demo_unsubscribe, demo_sub⟩

/-- The same for UNREGISTERED. -/
theorem C46_unregistered (ops : List (Op W)) (op : Op W) (m : Unregistered) (hm : incoming c op = some (.unregistered m)) :
    (¬ Outstanding c ops .unregister m.requestId.val →
      (∃ t, outcome c ops op = .error (.valueError t)) ∧ NoEffect c ops op) ∧
    (∀ t, Withdrawing c ops .unregister m.requestId.val t →
      (Granted c (trace c ops) .register t → outcome c ops op = .ok (.msg (.unregistered m))) ∧
      (¬ Granted c (trace c ops) .register t → ∃ e, outcome c ops op = .error (.valueError e))) := by
  have := recv_unregistered (after c ops) m
  rw [has_after] at this
  rw [outcome_incoming c hm]
  refine ⟨fun h => ?_, fun t ht => ?_⟩
  · obtain ⟨h3, t, h4⟩ := this.1 h
    exact ⟨⟨t, by rw [h4]; rfl⟩, noEffect_of c (by rw [step_incoming c hm]; exact h3)⟩
  · have := this.2 t ((names_after c ops _ _ _).2 ht)
    rw [grants_after] at this
    exact ⟨fun h => by rw [this.1 h]; rfl, fun h => (this.2 h).imp fun e he => by rw [he]; rfl⟩

example : Withdrawing plainCodec (demo ++ [.sendMessage (.unregister ⟨.int 5, .int 9⟩)]) .unregister 5 9 ∧
    Granted plainCodec (trace plainCodec (demo ++ [.sendMessage (.unregister ⟨.int 5, .int 9⟩)])) .register 9 :=
  ⟨(names_after plainCodec _ _ _ _).1 rfl, (grants_after plainCodec _ _ _).1 (by decide)⟩

/-- An UNSUBSCRIBE (UNREGISTER) is outstanding exactly when some outstanding one names a subscription (registration). -/
theorem C46_outstanding_names (ops : List (Op W)) (i : Int) :
    (Outstanding c ops .unsubscribe i ↔ ∃ t, Withdrawing c ops .unsubscribe i t) ∧
    (Outstanding c ops .unregister i ↔ ∃ t, Withdrawing c ops .unregister i t) := by
  constructor
  · rw [← has_after]; simp only [← names_after, has, names, Option.isSome_iff_exists]
  · rw [← has_after]; simp only [← names_after, has, names, Option.isSome_iff_exists]

/-- Messages a session never accepts: everything that is neither a reply, EVENT, INVOCATION, GOODBYE nor ABORT. -/
theorem C46_other_rejected (ops : List (Op W)) (op : Op W) (m : Message) (hm : incoming c op = some m)
    (h : replyTo m = none) (h1 : ∀ x, m ≠ .event x) (h2 : ∀ x, m ≠ .invocation x) (h3 : ∀ x, m ≠ .goodbye x)
    (h4 : ∀ x, m ≠ .abort x) :
    (∃ t, outcome c ops op = .error (.valueError t)) ∧ NoEffect c ops op := by
  have key : ((after c ops).receiveMessage m).1 = after c ops ∧
      ∃ t, ((after c ops).receiveMessage m).2 = .error (.valueError t) := by
    cases m <;> first | exact ⟨rfl, _, rfl⟩ | (cases h; done) | exact absurd rfl (h1 _) | exact absurd rfl (h2 _) |
      exact absurd rfl (h3 _) | exact absurd rfl (h4 _) | skip
    rename_i m
    simp only [replyTo, kindOfCode, Option.map_eq_none_iff] at h
    simp only [receiveMessage, receiveError, Call.TYPE, Register.TYPE, Unregister.TYPE,
      Subscribe.TYPE, Unsubscribe.TYPE, Publish.TYPE]
    grind
  rw [outcome_incoming c hm]
  obtain ⟨h5, t, h6⟩ := key
  exact ⟨⟨t, by rw [h6]; rfl⟩, noEffect_of c (by rw [step_incoming c hm]; exact h5)⟩

example : replyTo (.error ⟨.int 68, .int 11, "e", none, none, []⟩) = none := by decide

/-- Bytes that do not decode to a message are rejected without effect. -/
theorem C46_undecodable (ops : List (Op W)) (d : W) (e : Exc) (h : c.deserialize d = .error e) :
    outcome c ops (.receive d) = .error e ∧ NoEffect c ops (.receive d) := by
  have : (after c ops).step c (.receive d) = (after c ops, .error e) := by simp only [step, receive, h]; rfl
  exact ⟨by unfold outcome; rw [this], noEffect_of c (by rw [this])⟩

/-- `receive` on bytes is `receive_message` on the message they decode to. -/
theorem C46_receive_bytes (ops : List (Op W)) (d : W) (m : Message) (h : c.deserialize d = .ok m) :
    outcome c ops (.receive d) = outcome c ops (.receiveMessage m) ∧
      ∀ more x, outcome c (ops ++ .receive d :: more) x = outcome c (ops ++ .receiveMessage m :: more) x := by
  have hs : (after c ops).step c (.receive d) = (after c ops).step c (.receiveMessage m) := by
    rw [step_incoming c (m := m) (by simp only [incoming, h]; rfl), step_incoming c (m := m) rfl]
  refine ⟨by unfold outcome; rw [hs], fun more x => ?_⟩
  have key : ∀ op, after c (ops ++ op :: more) = (runFrom c ((after c ops).step c op).1 more).1 := fun op => by
    rw [show ops ++ op :: more = (ops ++ [op]) ++ more by simp, ← after_snoc]
    simp only [after, runFrom_append]
  unfold outcome
  rw [key, key, hs]

example : plainCodec.deserialize (.list [.int 35, .int 4]) = .ok (.unsubscribed ⟨.int 4⟩) ∧
    ∃ e, plainCodec.deserialize (.int 4) = .error e := ⟨rfl, _, rfl⟩

/-- C46 as stated fails for UNSUBSCRIBED and UNREGISTERED: with the request outstanding the reply can still be refused,
because what it withdraws is not (or no longer) granted — here two UNSUBSCRIBEs of the same subscription, the second
reply raises although its request is outstanding, and the request is forgotten all the same. -/
theorem C46_fails_unsubscribed :
    let ops := demo ++ [.sendMessage (.unsubscribe ⟨.int 5, .int 7⟩), .receiveMessage (.unsubscribed ⟨.int 4⟩)]
    Outstanding plainCodec ops .unsubscribe 5 ∧
      (∃ t, outcome plainCodec ops (.receiveMessage (.unsubscribed ⟨.int 5⟩)) = .error (.valueError t)) ∧
      ¬ Outstanding plainCodec (ops ++ [.receiveMessage (.unsubscribed ⟨.int 5⟩)]) .unsubscribe 5 :=
  ⟨(has_after _ _ _ _).1 (by decide), ⟨_, rfl⟩, fun h => absurd ((has_after _ _ _ _).2 h) (by decide)⟩

/-- What holds in full generality: a reply of any kind is accepted only if its request is outstanding, is otherwise
rejected with ValueError without effect, and is accepted if the request is outstanding and — for UNSUBSCRIBED and
UNREGISTERED — what it withdraws is granted.  Missing: acceptance of UNSUBSCRIBED/UNREGISTERED without that condition. -/
theorem C46_replies_match_requests_partial (ops : List (Op W)) (op : Op W) (m : Message) (k : Kind) (i : Int)
    (hm : incoming c op = some m) (hr : replyTo m = some (k, i)) :
    (∀ out, outcome c ops op = .ok out → Outstanding c ops k i) ∧
    (¬ Outstanding c ops k i → (∃ t, outcome c ops op = .error (.valueError t)) ∧ NoEffect c ops op) ∧
    (Outstanding c ops k i →
      (∀ u t, m = .unsubscribed u → Withdrawing c ops .unsubscribe i t → Granted c (trace c ops) .subscribe t) →
      (∀ u t, m = .unregistered u → Withdrawing c ops .unregister i t → Granted c (trace c ops) .register t) →
      outcome c ops op = .ok (.msg m)) := by
  have key : (¬ Outstanding c ops k i → (∃ t, outcome c ops op = .error (.valueError t)) ∧ NoEffect c ops op) ∧
    (Outstanding c ops k i →
      (∀ u t, m = .unsubscribed u → Withdrawing c ops .unsubscribe i t → Granted c (trace c ops) .subscribe t) →
      (∀ u t, m = .unregistered u → Withdrawing c ops .unregister i t → Granted c (trace c ops) .register t) →
      outcome c ops op = .ok (.msg m)) := by
    by_cases h1 : ∃ u, m = .unregistered u
    · obtain ⟨u, rfl⟩ := h1
      cases hr
      have := C46_unregistered c ops op u hm
      refine ⟨this.1, fun ho _ hg => ?_⟩
      obtain ⟨t, ht⟩ := (C46_outstanding_names c ops _).2.1 ho
      exact (this.2 t ht).1 (hg u t rfl ht)
    · by_cases h2 : ∃ u, m = .unsubscribed u
      · obtain ⟨u, rfl⟩ := h2
        cases hr
        have := C46_unsubscribed c ops op u hm
        refine ⟨this.1, fun ho hg _ => ?_⟩
        obtain ⟨t, ht⟩ := (C46_outstanding_names c ops _).1.1 ho
        exact (this.2 t ht).1 (hg u t rfl ht)
      · have := C46_reply_iff_outstanding c ops op m k i hm hr (fun u e => h1 ⟨u, e⟩) (fun u e => h2 ⟨u, e⟩)
        exact ⟨this.2, fun ho _ _ => this.1 ho⟩
  refine ⟨fun out ho => Classical.byContradiction fun hn => ?_, key⟩
  obtain ⟨⟨t, ht⟩, _⟩ := key.1 hn
  rw [ho] at ht; cases ht

/-! ## C47 -/

/-- Each request is answered at most once. -/
theorem C47_answered_at_most_once (ops : List (Op W)) (k : Kind) (i : Int) :
    repliedCount c (trace c ops) k i ≤ sentCount ops k i ∧
    (Outstanding c ops k i → repliedCount c (trace c ops) k i < sentCount ops k i) := by
  induction ops using snoc_induction with
  | nil => exact ⟨Nat.le_refl _, fun ⟨pre, op, post, h, _⟩ => by simp at h⟩
  | snoc ops op ih =>
    have hacc : accepted (op, outcome c ops op) = true → Replies c op k i → Outstanding c ops k i := by
      rintro ha ⟨m, hm, hr⟩
      cases ho : outcome c ops op with
      | error e => rw [ho] at ha; cases ha
      | ok out => exact (C46_replies_match_requests_partial c ops op m k i hm hr).1 out ho
    have hstep := has_step c (after c ops) op k i
    rw [← after_snoc, has_after, has_after] at hstep
    rw [hstep, trace_snoc]
    unfold repliedCount sentCount at *
    simp only [List.countP_append, List.countP_cons, List.countP_nil]
    rcases op_cases c op with ⟨m, rfl⟩ | ⟨m, hm, hs⟩ | ⟨hn, hs⟩
    · have hnr : ¬ Replies c (.sendMessage m) k i := not_replies c rfl
      have hi : incoming c (.sendMessage m) = none := rfl
      simp only [hi, requests_send, hnr]
      by_cases hq : requestOf m = some (k, i) <;> simp [hq] <;> omega
    · have h0 : ¬ Requests op k i := not_requests hs
      rw [replies_incoming c hm] at hacc ⊢
      have hz : (match op with | .sendMessage m => decide (requestOf m = some (k, i)) | _ => false) = false := by
        cases op with
        | sendMessage m => exact absurd rfl (hs m)
        | _ => rfl
      simp only [h0, hm, false_or]
      by_cases hr : replyTo m = some (k, i)
      · by_cases ha : accepted (op, outcome c ops op) = true
        · have := ih.2 (hacc ha hr); simp [hr, ha]; omega
        · simp [hr, ha]; omega
      · simp [hr]; exact ih
    · have h0 : ¬ Requests op k i := not_requests hs
      have h1 : ¬ Replies c op k i := not_replies c hn
      have hz : (match op with | .sendMessage m => decide (requestOf m = some (k, i)) | _ => false) = false := by
        cases op with
        | sendMessage m => exact absurd rfl (hs m)
        | _ => rfl
      simp only [h0, h1, hn, false_or]
      simp; exact ih

example : repliedCount plainCodec (trace plainCodec demo) .subscribe 1 = 1 ∧ sentCount demo .subscribe 1 = 1 ∧
    repliedCount plainCodec (trace plainCodec demo) .call 3 = 0 ∧ sentCount demo .call 3 = 1 := by decide

/-! ## C48 -/

/-- EVENT is accepted exactly with a live subscription. -/
theorem C48_event_iff_granted (ops : List (Op W)) (op : Op W) (m : Event) (hm : incoming c op = some (.event m)) :
    (Granted c (trace c ops) .subscribe m.subscriptionId.val → outcome c ops op = .ok (.msg (.event m))) ∧
    (¬ Granted c (trace c ops) .subscribe m.subscriptionId.val → ∃ t, outcome c ops op = .error (.valueError t)) ∧
    NoEffect c ops op := by
  rw [← grants_after, outcome_incoming c hm]
  simp only [receiveMessage, grants]
  by_cases h : m.subscriptionId.val ∈ (after c ops).subscriptions
  · simp only [h, if_true]
    exact ⟨fun _ => rfl, fun h => absurd trivial h, noEffect_of c (by rw [step_incoming c hm]; simp [receiveMessage, h])⟩
  · simp only [h, if_false]
    exact ⟨fun h => h.elim, fun _ => ⟨_, rfl⟩, noEffect_of c (by rw [step_incoming c hm]; simp [receiveMessage, h])⟩

example : Granted plainCodec (trace plainCodec demo) .subscribe 7 ∧
    ¬ Granted plainCodec (trace plainCodec (demo ++ [.receiveMessage (.unsubscribed ⟨.int 4⟩)])) .subscribe 7 :=
  ⟨demo_sub, fun h => absurd ((grants_after _ _ _ _).2 h) (by decide)⟩

/-- INVOCATION is accepted exactly with a live registration. -/
theorem C48_invocation_iff_granted (ops : List (Op W)) (op : Op W) (m : Invocation)
    (hm : incoming c op = some (.invocation m)) :
    (Granted c (trace c ops) .register m.registrationId.val → outcome c ops op = .ok (.msg (.invocation m))) ∧
    (¬ Granted c (trace c ops) .register m.registrationId.val →
      (∃ t, outcome c ops op = .error (.valueError t)) ∧ NoEffect c ops op) := by
  rw [← grants_after, outcome_incoming c hm]
  simp only [receiveMessage, grants]
  by_cases h : m.registrationId.val ∈ (after c ops).registrations
  · simp only [h, if_true]
    exact ⟨fun _ => rfl, fun h => absurd trivial h⟩
  · simp only [h, if_false]
    exact ⟨fun h => h.elim, fun _ => ⟨⟨_, rfl⟩, noEffect_of c (by rw [step_incoming c hm]; simp [receiveMessage, h])⟩⟩

example : Granted plainCodec (trace plainCodec demo) .register 9 ∧
    ¬ Granted plainCodec (trace plainCodec demo) .register 7 :=
  ⟨demo_reg, fun h => absurd ((grants_after _ _ _ _).2 h) (by decide)⟩

/-! ## C49 -/

/-- YIELD goes through to the serializer exactly for a received, unanswered invocation; otherwise ValueError, without
effect. -/
theorem C49_yield_iff_unanswered (ops : List (Op W)) (m : Yield) :
    (Unanswered c (trace c ops) m.requestId.val →
      outcome c ops (.sendMessage (.yield_ m)) = (c.serialize (.yield_ m)).map .data) ∧
    (¬ Unanswered c (trace c ops) m.requestId.val →
      (∃ t, outcome c ops (.sendMessage (.yield_ m)) = .error (.valueError t)) ∧
        NoEffect c ops (.sendMessage (.yield_ m))) := by
  rw [← inv_after]
  unfold outcome
  simp only [step, sendMessage]
  by_cases h : m.requestId.val ∈ (after c ops).invocationRequests
  · rw [if_pos h]
    exact ⟨fun _ => rfl, fun h' => absurd h h'⟩
  · rw [if_neg h]
    exact ⟨fun h' => absurd h' h, fun _ => ⟨⟨_, rfl⟩, noEffect_of c (by simp [step, sendMessage, h])⟩⟩

example : Unanswered plainCodec (trace plainCodec demo) 11 ∧ ¬ Unanswered plainCodec (trace plainCodec demo) 3 :=
  ⟨demo_inv, fun h => absurd ((inv_after _ _ _).2 h) (by decide)⟩

/-- At most one YIELD is sent per received invocation. -/
theorem C49_yield_at_most_once (ops : List (Op W)) (i : Int) :
    yieldCount (trace c ops) i ≤ invokedCount c (trace c ops) i ∧
    (Unanswered c (trace c ops) i → yieldCount (trace c ops) i < invokedCount c (trace c ops) i) := by
  induction ops using snoc_induction with
  | nil => exact ⟨Nat.le_refl _, fun ⟨pre, op, post, h, _⟩ => by simp [trace, runFrom] at h⟩
  | snoc ops op ih =>
    have hstep := inv_step c ops op i
    rw [inv_after, inv_after] at hstep
    have hy : ∀ m, op = .sendMessage (.yield_ m) → m.requestId.val = i → accepted (op, outcome c ops op) = true →
        Unanswered c (trace c ops) i := by
      rintro m rfl rfl ha
      refine Classical.byContradiction fun hn => ?_
      obtain ⟨⟨t, ht⟩, _⟩ := (C49_yield_iff_unanswered c ops m).2 hn
      rw [ht] at ha; cases ha
    rw [hstep, trace_snoc]
    unfold yieldCount invokedCount at *
    simp only [List.countP_append, List.countP_cons, List.countP_nil]
    generalize List.countP (fun e => accepted e && isYield i e.fst) (trace c ops) = A at ih ⊢
    generalize List.countP (fun e => accepted e && isInvocation i (incoming c e.fst)) (trace c ops) = B at ih ⊢
    rcases op_cases c op with ⟨m, rfl⟩ | ⟨m, hm, hs⟩ | ⟨hn, hs⟩
    · have h0 : ¬ Invoked c (.sendMessage m, outcome c ops (.sendMessage m)) i := by rintro ⟨_, _, _, h, _⟩; cases h
      have hi : incoming c (.sendMessage m) = none := rfl
      simp only [hi, h0, false_or, isInvocation, Bool.and_false]
      cases m
      case yield_ y =>
        by_cases hi : y.requestId.val = i
        · have ha : AnswersInvocation (W := W) (.sendMessage (.yield_ y)) i := .inl ⟨y, rfl, hi⟩
          by_cases hacc : accepted (Op.sendMessage (.yield_ y), outcome c ops (.sendMessage (.yield_ y))) = true
          · have := ih.2 (hy y rfl hi hacc)
            simp [isYield, hi, hacc, ha]; omega
          · simp [isYield, hacc, ha]; omega
        · simp [isYield, hi]
          exact ⟨ih.1, fun h _ => ih.2 h⟩
      all_goals
        simp [isYield]
        exact ⟨ih.1, fun h _ => ih.2 h⟩
    · have h0 : ¬ AnswersInvocation op i := not_answers hs
      have hz : isYield i op = false := by
        cases op with
        | sendMessage m => exact absurd rfl (hs m)
        | _ => rfl
      simp only [h0, hm, hz]
      by_cases hq : Invoked c (op, outcome c ops op) i
      · obtain ⟨out, m', ho, hi, he⟩ := hq
        simp only at hi ho
        rw [hm] at hi; injection hi with hi; subst hi
        have : accepted (op, outcome c ops op) = true := by simp only [accepted, ho]
        simp [this, he, isInvocation]; omega
      · simp [hq]
        exact ⟨by omega, fun h => by have := ih.2 h; omega⟩
    · have h0 : ¬ AnswersInvocation op i := not_answers hs
      have hz : isYield i op = false := by
        cases op with
        | sendMessage m => exact absurd rfl (hs m)
        | _ => rfl
      have hq : ¬ Invoked c (op, outcome c ops op) i := by rintro ⟨_, _, _, h, _⟩; rw [hn] at h; cases h
      simp only [h0, hn, hz]
      simp [hq, isInvocation]; exact ih

example :
    let tr := trace plainCodec (demo ++ [.sendMessage (.yield_ ⟨.int 11, none, none, [], none, none, false⟩)])
    yieldCount tr 11 = 1 ∧ invokedCount plainCodec tr 11 = 1 := by decide

/-- ERROR can be sent only for invocations: any other type code is a ValueError without effect. -/
theorem C49_error_only_for_invocations (ops : List (Op W)) (m : ErrorMsg) (h : m.messageType.val ≠ 68) :
    (∃ t, outcome c ops (.sendMessage (.error m)) = .error (.valueError t)) ∧
      NoEffect c ops (.sendMessage (.error m)) := by
  have : (after c ops).sendMessage c (.error m) =
      (after c ops, .error (.valueError "send only supported for invocation error")) := by
    simp only [sendMessage]; exact if_pos h
  unfold outcome
  refine ⟨⟨_, by simp only [step, this]; rfl⟩, noEffect_of c (by simp only [step, this])⟩

example : (PyInt.int 48).val ≠ 68 := by decide

/-! ## C50 -/

/-- C50 is false for results: whatever the RESULT's options say (`progress` or not), once it is accepted every further
RESULT for that call is refused until a new CALL with that id is sent. -/
theorem C50_fails_result (ops more : List (Op W)) (m m' : Result) (hid : m'.requestId.val = m.requestId.val)
    (hmore : ∀ op ∈ more, ¬ Requests op .call m.requestId.val) :
    ∃ t, outcome c (ops ++ .receiveMessage (.result m) :: more) (.receiveMessage (.result m')) = .error (.valueError t) := by
  refine ((C46_reply_iff_outstanding c _ _ (.result m') .call m.requestId.val rfl (by simp [replyTo, hid])
    (fun u h => by cases h) (fun u h => by cases h)).2 ?_).1
  rw [← has_after]
  induction more using snoc_induction with
  | nil =>
    rw [after_snoc, has_step]
    rintro (⟨_, h, _⟩ | ⟨_, h⟩)
    · cases h
    · exact h ⟨.result m, rfl, rfl⟩
  | snoc more op ih =>
    rw [show ops ++ Op.receiveMessage (.result m) :: (more ++ [op]) = (ops ++ Op.receiveMessage (.result m) :: more) ++ [op] by simp,
      after_snoc, has_step]
    rintro (h | ⟨h, _⟩)
    · exact hmore op (by simp) h
    · exact ih (fun op h => hmore op (by simp [h])) h

/-- A concrete run: a call with `receive_progress`, two progressive results; the second is refused. -/
theorem C50_fails_witness :
    let ops : List (Op Value) :=
      [.sendMessage (.call ⟨.int 1, "p", none, none, [(.str "receive_progress", .bool true)], none, none, false⟩)]
    let r : Op Value := .receiveMessage (.result ⟨.int 1, none, none, [(.str "progress", .bool true)], none, none, false⟩)
    (∃ out, outcome plainCodec ops r = .ok out) ∧ (∃ t, outcome plainCodec (ops ++ [r]) r = .error (.valueError t)) :=
  ⟨⟨_, rfl⟩, ⟨_, rfl⟩⟩

/-- C50 is false for yields: after a YIELD (progressive or not) another YIELD for that invocation is refused until a new
INVOCATION with that id is accepted. -/
theorem C50_fails_yield (ops : List (Op W)) (m m' : Yield) (hid : m'.requestId.val = m.requestId.val) :
    ∃ t, outcome c (ops ++ [.sendMessage (.yield_ m)]) (.sendMessage (.yield_ m')) = .error (.valueError t) := by
  refine ((C49_yield_iff_unanswered c _ m').2 ?_).1
  rw [← inv_after, inv_step, hid]
  rintro (⟨_, _, _, h, _⟩ | ⟨_, h⟩)
  · cases h
  · exact h (.inl ⟨m, rfl, rfl⟩)

/-- What remains of C50: the first RESULT of a call, progressive or not, and the first YIELD of an invocation go through.
Missing: every later progressive RESULT and YIELD (refused, see above). -/
theorem C50_progressive_partial (ops : List (Op W)) :
    (∀ m : Result, Outstanding c ops .call m.requestId.val →
      outcome c ops (.receiveMessage (.result m)) = .ok (.msg (.result m))) ∧
    (∀ m : Yield, Unanswered c (trace c ops) m.requestId.val →
      outcome c ops (.sendMessage (.yield_ m)) = (c.serialize (.yield_ m)).map .data) :=
  ⟨fun m h => (C46_reply_iff_outstanding c ops _ (.result m) .call m.requestId.val rfl rfl
    (fun u h => by cases h) (fun u h => by cases h)).1 h, fun m h => (C49_yield_iff_unanswered c ops m).1 h⟩

/-! ## C51 -/

/-- A call that neither makes nor answers a request (k, i) never changes whether a reply to (k, i) other than
UNREGISTERED/UNSUBSCRIBED is accepted. -/
theorem C51_independent (ops : List (Op W)) (op : Op W) (k : Kind) (i : Int)
    (hq : ¬ Requests op k i) (hr : ¬ Replies c op k i)
    (x : Op W) (m : Message) (hm : incoming c x = some m) (hx : replyTo m = some (k, i))
    (h1 : ∀ u, m ≠ .unregistered u) (h2 : ∀ u, m ≠ .unsubscribed u) :
    (∃ out, outcome c (ops ++ [op]) x = .ok out) ↔ (∃ out, outcome c ops x = .ok out) := by
  have key : ∀ ops, (∃ out, outcome c ops x = .ok out) ↔ (after c ops).has k i := fun ops => by
    have := C46_reply_iff_outstanding c ops x m k i hm hx h1 h2
    rw [← has_after] at this
    constructor
    · rintro ⟨out, ho⟩
      refine Classical.byContradiction fun hn => ?_
      obtain ⟨⟨t, ht⟩, _⟩ := this.2 hn
      rw [ht] at ho; cases ho
    · exact fun h => ⟨_, this.1 h⟩
  rw [key, key, after_snoc, has_step]
  exact ⟨fun h => (h.resolve_left hq).1, fun h => .inr ⟨h, hr⟩⟩

example : ¬ Requests (W := Value) (.sendMessage (.register ⟨.int 3, "p", []⟩)) .call 3 ∧
    ¬ Replies plainCodec (.receiveMessage (.registered ⟨.int 3, .int 4⟩)) .call 3 :=
  ⟨fun ⟨_, h, h'⟩ => by injection h with h; subst h; exact absurd h' (by decide),
   fun ⟨_, h, h'⟩ => by injection h with h; subst h; exact absurd h' (by decide)⟩

/-- For UNSUBSCRIBED and UNREGISTERED: independent of every call that neither makes nor answers that request and is not an
accepted SUBSCRIBED/UNSUBSCRIBED (REGISTERED/UNREGISTERED).  Missing: independence of those, which is false. -/
theorem C51_withdrawal_partial (ops : List (Op W)) (op : Op W) (i : Int) :
    (∀ (x : Op W) (u : Unsubscribed), incoming c x = some (.unsubscribed u) → u.requestId.val = i →
      ¬ Requests op .unsubscribe i → ¬ Replies c op .unsubscribe i →
      (∀ t, ¬ Grants c (op, outcome c ops op) .subscribe t ∧ ¬ Withdraws c (trace c ops) (op, outcome c ops op) .subscribe t) →
      ((∃ out, outcome c (ops ++ [op]) x = .ok out) ↔ (∃ out, outcome c ops x = .ok out))) ∧
    (∀ (x : Op W) (u : Unregistered), incoming c x = some (.unregistered u) → u.requestId.val = i →
      ¬ Requests op .unregister i → ¬ Replies c op .unregister i →
      (∀ t, ¬ Grants c (op, outcome c ops op) .register t ∧ ¬ Withdraws c (trace c ops) (op, outcome c ops op) .register t) →
      ((∃ out, outcome c (ops ++ [op]) x = .ok out) ↔ (∃ out, outcome c ops x = .ok out))) := by
  have okiff : ∀ (ops : List (Op W)) (x : Op W) (o : Out W) (P Q : Prop), (¬ P → ∃ t, outcome c ops x = .error (.valueError t)) →
      (P → Q → outcome c ops x = .ok o) → (P → ¬ Q → ∃ t, outcome c ops x = .error (.valueError t)) →
      ((∃ out, outcome c ops x = .ok out) ↔ P ∧ Q) := by
    intro ops x o P Q h1 h2 h3
    constructor
    · rintro ⟨out, ho⟩
      have hP : P := Classical.byContradiction fun hn => by obtain ⟨t, ht⟩ := h1 hn; rw [ht] at ho; cases ho
      exact ⟨hP, Classical.byContradiction fun hn => by obtain ⟨t, ht⟩ := h3 hP hn; rw [ht] at ho; cases ho⟩
    · exact fun h => ⟨o, h2 h.1 h.2⟩
  refine ⟨?_, ?_⟩
  · rintro x u hx rfl hq hr hg
    have key : ∀ ops, (∃ out, outcome c ops x = .ok out) ↔
        ∃ t, (after c ops).names .unsubscribe u.requestId.val t ∧ (after c ops).grants .subscribe t := by
      intro ops
      have h := C46_unsubscribed c ops x u hx
      by_cases ho : Outstanding c ops .unsubscribe u.requestId.val
      · obtain ⟨t, ht⟩ := (C46_outstanding_names c ops _).1.1 ho
        have hn := (names_after c ops _ _ _).2 ht
        rw [okiff ops x _ True (Granted c (trace c ops) .subscribe t) (fun h => absurd trivial h)
          (fun _ hgr => (h.2 t ht).1 hgr) (fun _ hgr => (h.2 t ht).2 hgr), ← grants_after]
        constructor
        · exact fun h => ⟨t, hn, h.2⟩
        · rintro ⟨t', hn', hg'⟩
          have : t = t' := Option.some.inj (hn.symm.trans hn')
          exact ⟨trivial, this ▸ hg'⟩
      · obtain ⟨⟨t, ht⟩, _⟩ := h.1 ho
        constructor
        · rintro ⟨o, hoo⟩; rw [ht] at hoo; cases hoo
        · rintro ⟨t, hn, _⟩
          exact absurd ((C46_outstanding_names c ops _).1.2 ⟨t, (names_after c ops _ _ _).1 hn⟩) ho
    rw [key, key]
    refine exists_congr fun t => ?_
    have hN : ¬ Names op .unsubscribe u.requestId.val t := by
      rintro (⟨_, m, rfl, h, _⟩ | ⟨h, _⟩)
      · exact hq ⟨_, rfl, by simp [requestOf, h]⟩
      · cases h
    rw [grants_step, after_snoc, names_step]
    constructor
    · rintro ⟨h1, h2⟩
      exact ⟨(h1.resolve_left hN).1, (h2.resolve_left (hg t).1).1⟩
    · rintro ⟨h1, h2⟩
      exact ⟨.inr ⟨h1, hq, hr⟩, .inr ⟨h2, (hg t).2⟩⟩
  · rintro x u hx rfl hq hr hg
    have key : ∀ ops, (∃ out, outcome c ops x = .ok out) ↔
        ∃ t, (after c ops).names .unregister u.requestId.val t ∧ (after c ops).grants .register t := by
      intro ops
      have h := C46_unregistered c ops x u hx
      by_cases ho : Outstanding c ops .unregister u.requestId.val
      · obtain ⟨t, ht⟩ := (C46_outstanding_names c ops _).2.1 ho
        have hn := (names_after c ops _ _ _).2 ht
        rw [okiff ops x _ True (Granted c (trace c ops) .register t) (fun h => absurd trivial h)
          (fun _ hgr => (h.2 t ht).1 hgr) (fun _ hgr => (h.2 t ht).2 hgr), ← grants_after]
        constructor
        · exact fun h => ⟨t, hn, h.2⟩
        · rintro ⟨t', hn', hg'⟩
          have : t = t' := Option.some.inj (hn.symm.trans hn')
          exact ⟨trivial, this ▸ hg'⟩
      · obtain ⟨⟨t, ht⟩, _⟩ := h.1 ho
        constructor
        · rintro ⟨o, hoo⟩; rw [ht] at hoo; cases hoo
        · rintro ⟨t, hn, _⟩
          exact absurd ((C46_outstanding_names c ops _).2.2 ⟨t, (names_after c ops _ _ _).1 hn⟩) ho
    rw [key, key]
    refine exists_congr fun t => ?_
    have hN : ¬ Names op .unregister u.requestId.val t := by
      rintro (⟨h, _⟩ | ⟨_, m, rfl, h, _⟩)
      · cases h
      · exact hq ⟨_, rfl, by simp [requestOf, h]⟩
    rw [grants_step, after_snoc, names_step]
    constructor
    · rintro ⟨h1, h2⟩
      exact ⟨(h1.resolve_left hN).1, (h2.resolve_left (hg t).1).1⟩
    · rintro ⟨h1, h2⟩
      exact ⟨.inr ⟨h1, hq, hr⟩, .inr ⟨h2, (hg t).2⟩⟩

/-- The failing case: UNSUBSCRIBED for request 4 makes the reply to request 5 unacceptable. -/
theorem C51_fails_unsubscribed :
    let ops := demo ++ [.sendMessage (.unsubscribe ⟨.int 5, .int 7⟩)]
    let x : Op Value := .receiveMessage (.unsubscribed ⟨.int 5⟩)
    (∃ out, outcome plainCodec ops x = .ok out) ∧
      ¬ ∃ out, outcome plainCodec (ops ++ [.receiveMessage (.unsubscribed ⟨.int 4⟩)]) x = .ok out :=
  ⟨⟨_, rfl⟩, fun ⟨_, h⟩ => by cases h⟩

/-! ## C52 -/

/-- A codec that refuses everything. -/
def brokenCodec : Codec Value := ⟨fun _ => .error (.external "dumps"), .ok⟩

/-- C52 is false when the serializer fails: the CALL raised, yet a RESULT for it is accepted afterwards. -/
theorem C52_fails_serializer :
    let call : Op Value := .sendMessage (.call ⟨.int 1, "p", none, none, [], none, none, false⟩)
    let r : Op Value := .receiveMessage (.result ⟨.int 1, none, none, [], none, none, false⟩)
    (∃ e, outcome brokenCodec [] call = .error e) ∧ (∃ out, outcome brokenCodec [call] r = .ok out) ∧
      ∃ t, outcome brokenCodec [] r = .error (.valueError t) :=
  ⟨⟨_, rfl⟩, ⟨_, rfl⟩, ⟨_, rfl⟩⟩

/-- What holds: if the serializer can encode the message, a `send_message` that raises has no effect.
Missing: messages the serializer refuses. -/
theorem C52_failed_send_partial (ops : List (Op W)) (m : Message) (w : W) (hw : c.serialize m = .ok w) (e : Exc)
    (h : outcome c ops (.sendMessage m) = .error e) :
    (∃ t, e = .valueError t) ∧ NoEffect c ops (.sendMessage m) := by
  have key : (∃ t, e = .valueError t) ∧ ((after c ops).sendMessage c m).1 = after c ops := by
    have h' : (((after c ops).sendMessage c m).2.map (Out.data (W := W))) = .error e := h
    cases m <;> simp only [sendMessage, hw] at h' ⊢ <;> (try split at h') <;> first | (cases h'; done) | skip
    all_goals simp_all [Except.map]
    all_goals exact ⟨_, h'.symm⟩
  exact ⟨key.1, noEffect_of c key.2⟩

example : (∃ w, plainCodec.serialize (.yield_ ⟨.int 3, none, none, [], none, none, false⟩) = .ok w) ∧
    ∃ e, outcome plainCodec demo (.sendMessage (.yield_ ⟨.int 3, none, none, [], none, none, false⟩)) = .error e :=
  ⟨⟨_, rfl⟩, ⟨_, rfl⟩⟩

end Wamp.WAMPSession
