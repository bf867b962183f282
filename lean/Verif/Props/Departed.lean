import Verif.Props.Broker
import Verif.Props.Dealer

/-!
# Sessions that have left: C86, C87

C86: whatever the broker or the dealer asks to be sent goes to a session that is connected.  C87: broker and dealer keep
nothing about sessions that have left.  Both hold of the broker; of the dealer they hold except for calls in progress.
-/

namespace Wamp.Broker
open Spec.Pub

/-- Whom the outcome of a call asks to send something. -/
def addressees : Out → List Int
  | .reply m => [m.recipient]
  | .publication p => p.recipients ++ (p.ack.map (·.recipient)).toList
  | .unit => []
  | .bool _ => []

/-! ## C86 for the broker -/

/-- The broker only ever addresses sessions that are connected: replies, acknowledgements and events alike. -/
theorem C86_broker (ops : List Op) (hc : NoClash (trace ops)) (op : Op) (out : Out) (h : outcome ops op = .ok out) (q : Int)
    (hq : q ∈ addressees out) : q ∈ (view (trace ops)).known := by
  have hr := rel_after ops hc
  have hw := wf_after ops
  cases op with
  | addSession d => simp only [outcome, step] at h; cases hx : ((after ops).addSession d).2 <;> rw [hx] at h <;> cases h; cases hq
  | removeSession s => simp only [outcome, step] at h; cases hx : ((after ops).removeSession s).2 <;> rw [hx] at h <;> cases h; cases hq
  | hasSubscription t => cases h; cases hq
  | receiveMessage s m =>
    cases m with
    | subscribe m =>
      cases hs : (after ops).subscriptionsBySession.get s with
      | none => simp only [outcome, step, receiveMessage, receiveSubscribe, hs] at h; cases h
      | some d =>
        obtain ⟨j, e⟩ : ∃ j, ((after ops).receiveSubscribe s m).2 = .ok ⟨.subscribed ⟨m.requestId, .int j⟩, s⟩ := by
          cases ht : (after ops).subscriptionsByTopic.get m.topic with
          | none => rw [subscribe_new _ s m d hs ht]; exact ⟨_, rfl⟩
          | some r => rw [subscribe_old _ s m d r hs ht]; exact ⟨_, rfl⟩
        simp only [outcome, step, receiveMessage, e] at h
        cases h
        simp only [addressees, List.mem_singleton] at hq
        subst hq; exact (hr.known _).2 ⟨d, hs⟩
    | unsubscribe m =>
      cases hs : (after ops).subscriptionsBySession.get s with
      | none => simp only [outcome, step, receiveMessage, receiveUnsubscribe, hs] at h; cases h
      | some d =>
        cases hd : d.get m.subscriptionId.val with
        | none => simp only [outcome, step, receiveMessage, receiveUnsubscribe, hs, hd] at h; cases h
        | some r =>
          simp only [outcome, step, receiveMessage, unsubscribe_ok _ hw s m d r hs hd] at h
          cases h
          simp only [addressees, List.mem_singleton] at hq
          subst hq; exact (hr.known _).2 ⟨d, hs⟩
    | _ => cases h
  | receivePublish s m =>
    by_cases hs : s ∈ (view (trace ops)).known
    · obtain ⟨p, e, hp, -⟩ := C19_exact_delivery ops hc s m hs
      rw [e] at h; cases h
      simp only [addressees, List.mem_append, Option.mem_toList] at hq
      rcases hq with hq | hq
      · rw [hp, mem_subscribers] at hq
        obtain ⟨x, hx, rfl, -⟩ := hq
        obtain ⟨_, d, -, -, k, -⟩ := hr.ids x hx
        exact (hr.known _).2 ⟨d, k⟩
      · have ha := C27_acknowledge ops s m p e
        cases hk : p.ack with
        | none => rw [hk] at hq; cases hq
        | some a =>
          rw [hk] at hq; cases hq
          change a.recipient ∈ _
          rw [(ha.2 a hk).1]; exact hs
    · obtain ⟨⟨msg, e⟩, -⟩ := C19_unknown_publisher ops s m hs
      rw [e] at h; cases h

example : ∃ p, outcome demo (.receivePublish 1 { requestId := .int 5, topic := "a", options := [(.str "acknowledge", .bool true)] }) =
    .ok (.publication p) ∧ addressees (.publication p) = [2, 1, 1] := ⟨_, rfl, by decide⟩

/-! ## C87 for the broker -/

/-- What the broker's public dicts contain: an entry for every connected session and nobody else; the topics somebody
connected is subscribed to and no others; and under a session's entry the subscriptions it holds and no others. -/
theorem C87_broker (ops : List Op) (hc : NoClash (trace ops)) :
    (∀ s, (after ops).sessions.contains s = true ↔ s ∈ (view (trace ops)).known) ∧
    (∀ s, (after ops).subscriptionsBySession.contains s = true ↔ s ∈ (view (trace ops)).known) ∧
    (∀ t, (after ops).subscriptionsByTopic.contains t = true ↔
      ∃ x ∈ (view (trace ops)).held, x.topic = t ∧ x.session ∈ (view (trace ops)).known) ∧
    ∀ s d i, (after ops).subscriptionsBySession.get s = some d →
      (d.contains i = true ↔ ∃ t, (⟨s, t, i⟩ : Holding) ∈ (view (trace ops)).held) := by
  have hr := rel_after ops hc
  have hw := wf_after ops
  have h2 : ∀ s, (after ops).subscriptionsBySession.contains s = true ↔ s ∈ (view (trace ops)).known := fun s => by
    rw [Dict.contains_iff_get, hr.known]
  refine ⟨fun s => by rw [hw.reg, h2], h2, ?_, ?_⟩
  · intro t
    rw [Dict.contains_iff_get]
    constructor
    · rintro ⟨r, ht⟩
      have hs := hr.subs_some ht
      obtain ⟨-, hne, -⟩ := hw.top _ _ ht
      cases hk : ((after ops).heap r).subscribers.keys with
      | nil => exact absurd hk hne
      | cons s rest =>
        have : s ∈ (view (trace ops)).subscribers t := by rw [hs, hk]; exact List.mem_cons_self
        obtain ⟨x, hx, rfl, rfl⟩ := mem_subscribers.1 this
        obtain ⟨_, d, -, -, k, -⟩ := hr.ids x hx
        exact ⟨x, hx, rfl, (hr.known _).2 ⟨d, k⟩⟩
    · rintro ⟨x, hx, rfl, -⟩
      obtain ⟨r, _, k, -⟩ := hr.ids x hx
      exact ⟨r, k⟩
  · intro s d i hs
    rw [Dict.contains_iff_get]
    constructor
    · rintro ⟨r, hi⟩
      obtain ⟨k1, k2, k3⟩ := (hw.ses s d hs).2 i r hi
      have : s ∈ (view (trace ops)).subscribers ((after ops).heap r).topic := by rw [hr.subs_some k3]; exact k2
      obtain ⟨x, hx, e1, e2⟩ := mem_subscribers.1 this
      obtain ⟨r', d', q1, q2, -⟩ := hr.ids x hx
      rw [e2, k3] at q1; cases q1
      refine ⟨x.topic, ?_⟩
      obtain ⟨xs, xt, xi⟩ := x
      simp only at e1 q2; subst e1
      rw [k1] at q2; subst q2; exact hx
    · rintro ⟨t, hx⟩
      obtain ⟨r, d', -, -, q3, q4⟩ := hr.ids _ hx
      rw [hs] at q3; cases q3; exact ⟨r, q4⟩

/-- When everybody has left, the broker's dicts are empty. -/
theorem C87_broker_empty (ops : List Op) (hc : NoClash (trace ops)) (h : ∀ s, s ∉ (view (trace ops)).known) :
    (after ops).sessions = .empty ∧ (after ops).subscriptionsBySession = .empty ∧
      (after ops).subscriptionsByTopic = .empty := by
  obtain ⟨h1, h2, h3, -⟩ := C87_broker ops hc
  have key : ∀ {K V : Type} [DecidableEq K] (d : Dict K V), (∀ k, d.contains k ≠ true) → d = .empty := by
    intro K V _ d hd
    obtain ⟨l⟩ := d
    cases l with
    | nil => rfl
    | cons a l =>
      refine absurd ?_ (hd a.1)
      rw [Dict.contains_iff]; exact List.mem_cons_self
  refine ⟨key _ fun s e => h s ((h1 s).1 e), key _ fun s e => h s ((h2 s).1 e), key _ fun t e => ?_⟩
  obtain ⟨x, -, -, hx⟩ := (h3 t).1 e
  exact h _ hx

/-- The worked history with everybody gone. -/
def demoGone : List Op := demo ++ [.removeSession 1, .removeSession 2]

example : NoClash (trace demoGone) ∧ (view (trace demoGone)).known = [] ∧ (view (trace demo)).held.length = 3 :=
  ⟨C19_no_clash _ (by decide), by decide, by decide⟩

end Wamp.Broker

namespace Wamp.Dealer
open Spec.Rpc

/-! ## C86 for the dealer -/

/-- What the dealer asks to be sent goes to a connected session, with two exceptions: the ERROR for a CALL made by a
stranger goes back to the stranger; and the answer to a call goes to its caller, who may not have been connected when it
called or may have left since.  That the last case is possible is the part of C86 that fails. -/
theorem C86_dealer_partial (ops : List Op) (hd : (view (trace ops)).drawn < 2 ^ 53) (op : Op) (m : Message) (q : Int)
    (h : outcome ops op = .ok (.reply ⟨m, q⟩)) :
    q ∈ (view (trace ops)).known ∨
    (∃ call e, op = .receiveMessage q (.call call) ∧ m = .error e) ∨
    ((∃ r, m = .result r) ∨ ∃ e, m = .error e) ∧
      ∃ pre call inv callee post, trace ops = pre ++ (.receiveMessage q (.call call), .ok (.reply ⟨.invocation inv, callee⟩)) :: post ∧
        (q ∉ (view pre).known ∨ ∃ e ∈ post, Leaves e q) := by
  obtain ⟨hr, hc⟩ := rel_after ops hd
  have hk := kind (after ops) (wf_after ops) op
  have caller : ∀ p i, (after ops).pendingCalls.get i = some p → p.callerId ∉ (view (trace ops)).known →
      ∃ pre call inv callee post,
        trace ops = pre ++ (.receiveMessage p.callerId (.call call), .ok (.reply ⟨.invocation inv, callee⟩)) :: post ∧
        (p.callerId ∉ (view pre).known ∨ ∃ e ∈ post, Leaves e p.callerId) := by
    intro p i hp hn
    obtain ⟨pre, e, post, ht, ⟨⟨call, inv, he, -⟩, -⟩, -⟩ := (pending_iff _ _).1 (hc.pend i p hp)
    subst he
    refine ⟨pre, call, inv, _, post, ht, ?_⟩
    by_cases hin : p.callerId ∈ (view pre).known
    · right
      obtain ⟨a, j, b, e1, e2, e3⟩ := (known_iff _ _).1 hin
      apply Classical.byContradiction
      intro hno
      apply hn
      rw [known_iff]
      refine ⟨a, j, b ++ _ :: post, by rw [ht, e1, List.append_assoc, List.cons_append], e2, ?_⟩
      intro e' he'
      rcases List.mem_append.1 he' with he' | he'
      · exact e3 e' he'
      · rcases List.mem_cons.1 he' with rfl | he'
        · rintro ⟨_, e⟩; cases e
        · exact fun hl => hno ⟨e', he', hl⟩
    · exact .inl hin
  have h' : ((after ops).step op).2 = .ok (.reply ⟨m, q⟩) := h
  generalize (after ops).step op = res at hk h'
  cases hk with
  | fail => cases h'
  | keyError => cases h'
  | add => cases h'
  | remove => cases h'
  | has => cases h'
  | callNone s m' _ => cases h'; exact .inr (.inl ⟨_, _, rfl, rfl⟩)
  | callContinue s m' r c i h1 h2 _ _ =>
    cases h'
    obtain ⟨d, k, -⟩ := hr.dict _ _ _ h1 h2
    exact .inl ((hr.known _).2 ⟨d, k⟩)
  | callNew s m' r c h1 h2 _ =>
    cases h'
    obtain ⟨d, k, -⟩ := hr.dict _ _ _ h1 h2
    exact .inl ((hr.known _).2 ⟨d, k⟩)
  | yieldProgress s m' p h1 =>
    cases h'
    by_cases hq : p.callerId ∈ (view (trace ops)).known
    · exact .inl hq
    · exact .inr (.inr ⟨.inl ⟨_, rfl⟩, caller p _ h1 hq⟩)
  | yieldFinal s m' p i h1 =>
    cases h'
    by_cases hq : p.callerId ∈ (view (trace ops)).known
    · exact .inl hq
    · exact .inr (.inr ⟨.inl ⟨_, rfl⟩, caller p _ h1 hq⟩)
  | registerNew s m' d h1 => cases h'; exact .inl ((hr.known _).2 ⟨d, h1⟩)
  | registerTaken s m' d r h1 => cases h'; exact .inl ((hr.known _).2 ⟨d, h1⟩)
  | unregister s m' d r h1 => cases h'; exact .inl ((hr.known _).2 ⟨d, h1⟩)
  | error s m' p _ h1 =>
    cases h'
    by_cases hq : p.callerId ∈ (view (trace ops)).known
    · exact .inl hq
    · exact .inr (.inr ⟨.inr ⟨_, rfl⟩, caller p _ h1 hq⟩)

/-- In particular an INVOCATION always goes to a connected session. -/
theorem C86_invocation_partial (ops : List Op) (hd : (view (trace ops)).drawn < 2 ^ 53) (op : Op) (inv : Invocation) (q : Int)
    (h : outcome ops op = .ok (.reply ⟨.invocation inv, q⟩)) : q ∈ (view (trace ops)).known := by
  rcases C86_dealer_partial ops hd op _ q h with h | ⟨_, _, _, e⟩ | ⟨⟨_, e⟩ | ⟨_, e⟩, _⟩
  · exact h
  · cases e
  · cases e
  · cases e

/-- The callers of pending calls that do not go away do get their answers sent to a connected session: if sessions only
call while connected and nobody has left, every addressee is connected. -/
theorem C86_nobody_left_partial (ops : List Op) (hd : (view (trace ops)).drawn < 2 ^ 53)
    (hl : ∀ e ∈ trace ops, ∀ s, ¬ Leaves e s)
    (hcall : ∀ pre s call res post, trace ops = pre ++ (.receiveMessage s (.call call), res) :: post → s ∈ (view pre).known)
    (op : Op) (hop : ∀ s call, op = .receiveMessage s (.call call) → s ∈ (view (trace ops)).known) (m : Message) (q : Int)
    (h : outcome ops op = .ok (.reply ⟨m, q⟩)) : q ∈ (view (trace ops)).known := by
  rcases C86_dealer_partial ops hd op _ q h with h | ⟨call, _, e, _⟩ | ⟨_, pre, call, inv, callee, post, ht, hn | ⟨e, he, hle⟩⟩
  · exact h
  · exact hop _ _ e
  · exact absurd (hcall _ _ _ _ _ ht) hn
  · exact absurd hle (hl e (by rw [ht]; exact List.mem_append_right _ (List.mem_cons_of_mem _ he)) q)

example : (view (trace demo)).drawn < 2 ^ 53 ∧ (∀ e ∈ trace demo, ∀ s, ¬ Leaves e s) ∧
    (∀ pre s call res post, trace demo = pre ++ (.receiveMessage s (.call call), res) :: post → s ∈ (view pre).known) ∧
    outcome demo (.receiveMessage 2 (.yield_ { requestId := .int 6 })) = .ok (.reply ⟨.result { requestId := .int 1 }, 3⟩) := by
  refine ⟨demo_drawn, ?_, ?_, by decide⟩
  · intro e he s hl
    obtain ⟨out, rfl⟩ := hl
    simp [demo, trace, runFrom, step] at he
  · intro pre s call res post h
    have hl : 3 ≤ pre.length := by
      rcases pre with _ | ⟨a, _ | ⟨b, _ | ⟨c, pre⟩⟩⟩ <;> simp [demo, trace, runFrom, step] at h
      simp
    have ht : (view ((trace demo).take 3)).known = [1, 2, 3] := by decide
    have hx : s = 1 ∨ s = 3 := by
      have : (Op.receiveMessage s (.call call), res) ∈ trace demo := by rw [h]; simp
      simp [demo, trace, runFrom, step] at this
      rcases this with h | h | h
      · exact .inl h.1.1
      · exact .inl h.1.1
      · exact .inr h.1.1
    have hp : pre = (trace demo).take 3 ++ pre.drop 3 := by
      rw [h, List.take_append_of_le_length hl, List.take_append_drop]
    rw [known_iff]
    have hs : s ∈ (view ((trace demo).take 3)).known := by rw [ht]; rcases hx with rfl | rfl <;> decide
    obtain ⟨x, e, y, e1, e2, e3⟩ := (known_iff _ _).1 hs
    refine ⟨x, e, y ++ pre.drop 3, hp.trans (by rw [e1, List.append_assoc, List.cons_append]), e2, ?_⟩
    intro e' he'
    rcases List.mem_append.1 he' with he' | he'
    · exact e3 e' he'
    · have hm : e' ∈ trace demo := by rw [h]; exact List.mem_append_left _ (List.mem_of_mem_drop he')
      rintro ⟨out, rfl⟩
      simp [demo, trace, runFrom, step] at hm

/-- Session 1 calls "p" of session 2 and leaves. -/
def callerLeaves : List Op :=
  [.addSession ⟨.int 1, "r", none, none⟩, .addSession ⟨.int 2, "r", none, none⟩,
   .receiveMessage 2 (.register ⟨.int 1, "p", []⟩), .receiveMessage 1 (.call { requestId := .int 9, procedure := "p" }),
   .removeSession 1]

/-- C86 is false of the dealer: the RESULT of a call is addressed to its caller although the caller has left. -/
theorem C86_fails_when_caller_leaves :
    1 ∉ (view (trace callerLeaves)).known ∧
    outcome callerLeaves (.receiveMessage 2 (.yield_ { requestId := .int 2 })) =
      .ok (.reply ⟨.result { requestId := .int 9 }, 1⟩) := by decide

/-- After that, another client joins and is given the session id of the one who left. -/
def idGivenAgain : List Op := callerLeaves ++ [.addSession ⟨.int 1, "r", some "mallory", none⟩]

/-- Then the RESULT goes to the newcomer, who never called anything. -/
theorem C86_fails_to_stranger :
    (trace idGivenAgain).getLast? = some (.addSession ⟨.int 1, "r", some "mallory", none⟩, .ok .unit) ∧
    outcome idGivenAgain (.receiveMessage 2 (.yield_ { requestId := .int 2, args := some [.str "secret"] })) =
      .ok (.reply ⟨.result { requestId := .int 9, args := some [.str "secret"] }, 1⟩) := by decide

/-- A session that was never added can call, and is answered. -/
theorem C86_fails_for_stranger :
    5 ∉ (view (trace (callerLeaves ++ [.receiveMessage 5 (.call { requestId := .int 1, procedure := "p" })]))).known ∧
    outcome (callerLeaves ++ [.receiveMessage 5 (.call { requestId := .int 1, procedure := "p" })])
      (.receiveMessage 2 (.yield_ { requestId := .int 3 })) = .ok (.reply ⟨.result { requestId := .int 1 }, 5⟩) := by decide

/-! ## C87 for the dealer -/

/-- What the dealer's public dicts contain about sessions and registrations: an entry for every connected session and nobody
else; the procedures registered by somebody connected and no others; under a session's entry the registrations it holds
and no others.  And about calls: exactly the calls without a final answer.  Whether these belong to connected sessions is
the part of C87 that fails. -/
theorem C87_dealer_partial (ops : List Op) (hd : (view (trace ops)).drawn < 2 ^ 53) :
    (∀ s, (after ops).sessions.contains s = true ↔ s ∈ (view (trace ops)).known) ∧
    (∀ s, (after ops).registrationsBySession.contains s = true ↔ s ∈ (view (trace ops)).known) ∧
    (∀ p, (after ops).registrationsByProcedure.contains p = true ↔
      ∃ x ∈ (view (trace ops)).held, x.procedure = p ∧ x.session ∈ (view (trace ops)).known) ∧
    (∀ s d i, (after ops).registrationsBySession.get s = some d →
      (d.contains i = true ↔ ∃ p, (⟨s, p, i⟩ : Reg) ∈ (view (trace ops)).held)) ∧
    ∀ i, (after ops).pendingCalls.contains i = true ↔ ∃ x ∈ (view (trace ops)).pending, x.inv = i := by
  obtain ⟨hr, hc⟩ := rel_after ops hd
  have hw := wf_after ops
  have h2 : ∀ s, (after ops).registrationsBySession.contains s = true ↔ s ∈ (view (trace ops)).known := fun s => by
    rw [Dict.contains_iff_get, hr.known]
  refine ⟨fun s => by rw [hw.reg, h2], h2, ?_, ?_, ?_⟩
  · intro p
    rw [Dict.contains_iff_get]
    constructor
    · rintro ⟨r, hp⟩
      obtain ⟨-, ⟨s, hs⟩, -⟩ := hw.proc _ _ hp
      obtain ⟨d, k, -⟩ := hr.dict _ _ _ hp hs
      exact ⟨⟨s, p, _⟩, (hr.held _ _ _).2 ⟨r, hp, hs, rfl⟩, rfl, (hr.known _).2 ⟨d, k⟩⟩
    · rintro ⟨⟨s, p', i⟩, hx, rfl, -⟩
      obtain ⟨r, k, -⟩ := (hr.held _ _ _).1 hx
      exact ⟨r, k⟩
  · intro s d i hs
    rw [Dict.contains_iff_get]
    constructor
    · rintro ⟨r, hi⟩
      obtain ⟨k1, k2, k3⟩ := (hw.ses s d hs).2 i r hi
      exact ⟨_, (hr.held _ _ _).2 ⟨r, k3, k2, k1⟩⟩
    · rintro ⟨p, hx⟩
      obtain ⟨r, k1, k2, k3⟩ := (hr.held _ _ _).1 hx
      obtain ⟨d', q1, q2⟩ := hr.dict _ _ _ k1 k2
      rw [hs] at q1; cases q1
      rw [k3] at q2; exact ⟨r, q2⟩
  · intro i
    rw [Dict.contains_iff_get]
    constructor
    · rintro ⟨p, hp⟩; exact ⟨_, hc.pend i p hp, rfl⟩
    · rintro ⟨x, hx, rfl⟩
      obtain ⟨p, k, -⟩ := hc.sup x hx
      exact ⟨p, k⟩

/-- No ERROR was accepted in the trace. -/
def NoErrors (tr : List Obs) : Prop := ∀ s m out, (Op.receiveMessage s (.error m), Except.ok out) ∉ tr

/-- The remembered request ids are those of pending calls, if no call was answered with ERROR and nobody reuses the request
id of a pending call. -/
theorem marks_pending (ops : List Op) : (view (trace ops)).drawn < 2 ^ 53 → (∀ s, NoReuse s (trace ops)) → NoErrors (trace ops) →
    ∀ k i, (after ops).callToInvocationId.get k = some i →
      ∃ x ∈ (view (trace ops)).pending, x.inv = i ∧ (x.caller, x.request.val) = k := by
  induction ops using snoc_induction with
  | nil => intro _ _ _ k i h; simp [after, runFrom, init] at h
  | snoc ops op ih =>
    intro h hn he k i hki
    rw [trace_snoc] at hn he
    rw [trace_snoc, view_snoc] at h ⊢
    have hd := Nat.lt_of_le_of_lt (drawn_next_le _ _) h
    have ih := ih hd (fun s => (noReuse_snoc (hn s)).1) (fun s m out hm => he s m out (List.mem_append_left _ hm))
    have hf : ∀ s, FullRel s (after ops) (view (trace ops)) := fun s => full_after s ops hd (noReuse_snoc (hn s)).1
    obtain ⟨hr, hc⟩ := rel_after ops hd
    rw [after_snoc] at hki
    have hk := kind (after ops) (wf_after ops) op
    have he' : ∀ s m out, (op, ((after ops).step op).2) ≠ (Op.receiveMessage s (.error m), Except.ok out) := fun s m out e =>
      he s m out (List.mem_append_right _ (by rw [← e]; exact List.mem_singleton.2 rfl))
    have hst := wf_after ops
    generalize hres : (after ops).step op = res at hk hki he' ⊢
    generalize hv : view (trace ops) = v at *
    generalize hb : after ops = b at *
    cases hk with
    | fail e => rw [next_error]; exact ih k i hki
    | keyError s m p h1 h2 h3 h4 =>
      have := hf p.callerId _ (hc.pend _ _ h1) rfl
      simp only [entry] at this
      rw [h4] at this; cases this
    | add d b' h1 h2 =>
      have h2' : b'.callToInvocationId = b.callToInvocationId := by
        rw [h2]; simp only [addSession, Dict.contains, h1]; rfl
      rw [h2'] at hki; exact ih k i hki
    | remove s d b' h1 h2 =>
      obtain ⟨b'', k1, k2, k3, k4, -⟩ := removeSession_ok b hst s d h1
      rw [h2] at k1; injection k1 with k1; subst k1
      have : b'.callToInvocationId = b.callToInvocationId := k4.2.1
      simp only [this] at hki
      exact ih k i hki
    | has t => exact ih k i hki
    | callNone s m h => exact ih k i hki
    | callContinue s m r c j h1 h2 h3 h4 =>
      obtain ⟨x, hx, e, -⟩ := hc.map _ _ h4
      rw [next_call_old ⟨x, hx, e⟩]; exact ih k i hki
    | callNew s m r c' h1 h2 h3 =>
      have hid : b.idgen.next = (IdGen.after (v.drawn + 1), (v.drawn : Int) + 1) := by rw [hc.gen, idgen_next, draw_small hd]
      rw [hid] at hki ⊢
      simp only [Dict.get_set] at hki ⊢
      rw [next_call_new (by intro x hx e; have := hc.range x hx; omega)]
      split at hki
      · rename_i e
        cases hki
        exact ⟨_, List.mem_append_right _ (List.mem_singleton.2 rfl), rfl, e⟩
      · obtain ⟨x, hx, e⟩ := ih k i hki
        exact ⟨x, List.mem_append_left _ hx, e⟩
    | yieldProgress s m p h1 h2 h3 h4 =>
      rw [next_yield_progress (by rw [flag_eq]; exact h3)]; exact ih k i hki
    | yieldFinal s m p j h1 h2 h3 h4 =>
      rw [next_yield_final]
      simp only [Dict.get_del] at hki
      split at hki
      · cases hki
      · rename_i hne
        obtain ⟨x, hx, e1, e2⟩ := ih k i hki
        refine ⟨x, ?_, e1, e2⟩
        simp only [List.mem_filter, decide_eq_true_eq]
        refine ⟨hx, fun e => hne ?_⟩
        have := hc.inj x (hc.sub x hx) _ (hc.sub _ (hc.pend _ _ h1)) e
        rw [← e2, this]; rfl
    | registerNew s m d h1 h2 => exact ih k i hki
    | registerTaken s m d r h1 h2 => exact ih k i hki
    | unregister s m d r h1 h2 => exact ih k i hki
    | error s m p h1 h2 => exact absurd rfl (he' _ _ _)

/-- When everybody has left and every call has had its final answer, none of them an ERROR, the dealer's dicts are empty. -/
theorem C87_dealer_empty_partial (ops : List Op) (hd : (view (trace ops)).drawn < 2 ^ 53) (hn : ∀ s, NoReuse s (trace ops))
    (he : NoErrors (trace ops)) (hk : ∀ s, s ∉ (view (trace ops)).known) (hp : ∀ x, x ∉ (view (trace ops)).pending) :
    (after ops).sessions = .empty ∧ (after ops).registrationsBySession = .empty ∧
      (after ops).registrationsByProcedure = .empty ∧ (after ops).pendingCalls = .empty ∧
      (after ops).callToInvocationId = .empty := by
  obtain ⟨h1, h2, h3, -, h5⟩ := C87_dealer_partial ops hd
  have key : ∀ {K V : Type} [DecidableEq K] (d : Dict K V), (∀ k, d.contains k ≠ true) → d = .empty := by
    intro K V _ d hd
    obtain ⟨l⟩ := d
    cases l with
    | nil => rfl
    | cons a l =>
      refine absurd ?_ (hd a.1)
      rw [Dict.contains_iff]; exact List.mem_cons_self
  refine ⟨key _ fun s e => hk s ((h1 s).1 e), key _ fun s e => hk s ((h2 s).1 e), key _ fun t e => ?_, key _ fun i e => ?_,
    key _ fun k e => ?_⟩
  · obtain ⟨x, -, -, hx⟩ := (h3 t).1 e
    exact hk _ hx
  · obtain ⟨x, hx, -⟩ := (h5 i).1 e
    exact hp x hx
  · obtain ⟨i, hi⟩ := Dict.contains_iff_get.1 e
    obtain ⟨x, hx, -⟩ := marks_pending ops hd hn he k i hi
    exact hp x hx

/-- Session 1 calls "p" of session 2, is answered, and both leave. -/
def allGone : List Op :=
  callerLeaves ++ [.receiveMessage 2 (.yield_ { requestId := .int 2 }), .removeSession 2]

/-- Nobody calls twice in it. -/
theorem allGone_noReuse (s : Int) : NoReuse s (trace allGone) := by
  apply C32_noReuse_of_distinct
  intro pre m post h m' hm'
  have key : ∀ n, n ≤ 6 → ∀ s m, (allGone.drop n).head? = some (.receiveMessage s (.call m)) →
      ∀ m', .receiveMessage s (.call m') ∉ allGone.take n := by
    intro n hn
    rcases (by omega : n = 0 ∨ n = 1 ∨ n = 2 ∨ n = 3 ∨ n = 4 ∨ n = 5 ∨ n = 6) with rfl | rfl | rfl | rfl | rfl | rfl | rfl <;>
      intro s m h <;> simp [allGone, callerLeaves] at h <;> simp [allGone, callerLeaves]
  have hl : pre.length ≤ 6 := by
    have := congrArg List.length h
    simp [allGone, callerLeaves] at this; omega
  refine absurd ?_ (key pre.length hl s m (by rw [h]; simp) m')
  rw [h]; simpa using hm'

example : (view (trace allGone)).drawn < 2 ^ 53 ∧ (∀ s, NoReuse s (trace allGone)) ∧ NoErrors (trace allGone) ∧
    (view (trace allGone)).known = [] ∧ (view (trace allGone)).issued.length = 1 ∧ (view (trace allGone)).pending = [] :=
  ⟨C30_ids_not_exhausted _ (by decide), allGone_noReuse, by
    intro s m out h
    simp [allGone, callerLeaves, trace, runFrom, step] at h, by decide, by decide, by decide⟩

/-- C87 is false of the dealer: everybody has left, and a call is still kept. -/
theorem C87_fails_for_pending_calls :
    (view (trace (callerLeaves ++ [.removeSession 2]))).known = [] ∧
    (after (callerLeaves ++ [.removeSession 2])).pendingCalls.keys = [2] ∧
    (after (callerLeaves ++ [.removeSession 2])).callToInvocationId.keys = [(1, 9)] := by decide

/-- And after a call answered with ERROR, its request id is kept for ever, although everybody has left and no call is
pending. -/
theorem C87_fails_after_error :
    (view (trace (callerLeaves ++ [.receiveMessage 2 (.error ⟨.int 68, .int 2, "x", none, none, []⟩), .removeSession 2]))).known = [] ∧
    (view (trace (callerLeaves ++ [.receiveMessage 2 (.error ⟨.int 68, .int 2, "x", none, none, []⟩), .removeSession 2]))).pending = [] ∧
    (after (callerLeaves ++ [.receiveMessage 2 (.error ⟨.int 68, .int 2, "x", none, none, []⟩), .removeSession 2])).callToInvocationId.keys
      = [(1, 9)] := by decide

end Wamp.Dealer
