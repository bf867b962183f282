import Verif.Props.Session

/-!
# What a session sends and takes: C76, C77, and C46 exactly

Histories as in `Props/Session.lean`.
-/

namespace Wamp.WAMPSession
open Spec.Ses
variable {W : Type} (c : Codec W)

/-! ## C76 -/

/-- What a client may send at this point: requests and GOODBYE at any time, YIELD for an invocation it has not answered,
ERROR for an invocation. -/
def MaySend (ops : List (Op W)) : Message → Prop
  | .call _ | .register _ | .unregister _ | .publish _ | .subscribe _ | .unsubscribe _ | .goodbye _ => True
  | .yield_ m => Unanswered c (trace c ops) m.requestId.val
  | .error m => m.messageType.val = 68
  | _ => False

/-- `send_message` hands to the serializer exactly what a client may send, and returns what the serializer returns; for
everything else it raises ValueError and changes nothing. -/
theorem C76_send (ops : List (Op W)) (m : Message) :
    (MaySend c ops m → outcome c ops (.sendMessage m) = (c.serialize m).map .data) ∧
    (¬ MaySend c ops m → (∃ t, outcome c ops (.sendMessage m) = .error (.valueError t)) ∧ NoEffect c ops (.sendMessage m)) := by
  cases m
  case yield_ m => exact C49_yield_iff_unanswered c ops m
  case error m =>
    refine ⟨fun h => ?_, fun h => ?_⟩
    · have h' : ¬ m.messageType.val ≠ Invocation.TYPE := by simpa [Invocation.TYPE, MaySend] using h
      simp only [outcome, step, sendMessage, if_neg h']
    · exact C49_error_only_for_invocations c ops m h
  case publish m =>
    refine ⟨fun _ => ?_, fun h => absurd trivial h⟩
    simp only [outcome, step, sendMessage]
    split <;> rfl
  all_goals first
    | exact ⟨fun _ => rfl, fun h => absurd trivial h⟩
    | exact ⟨fun h => h.elim, fun _ => ⟨⟨_, rfl⟩, noEffect_of c rfl⟩⟩

/-- GOODBYE and ABORT are always taken, and change nothing. -/
theorem C76_goodbye_abort (ops : List (Op W)) (op : Op W) (m : Message) (hm : incoming c op = some m)
    (h : (∃ g, m = .goodbye g) ∨ ∃ a, m = .abort a) : outcome c ops op = .ok (.msg m) ∧ NoEffect c ops op := by
  rw [outcome_incoming c hm]
  rcases h with ⟨g, rfl⟩ | ⟨a, rfl⟩ <;>
    exact ⟨rfl, noEffect_of c (by rw [step_incoming c hm]; rfl)⟩

/-- A receive that returns, returns the message that was received. -/
theorem C76_receive_returns (ops : List (Op W)) (op : Op W) (m : Message) (hm : incoming c op = some m) (out : Out W)
    (h : outcome c ops op = .ok out) : out = .msg m := by
  rw [outcome_incoming c hm] at h
  suffices H : ∀ r, ((after c ops).receiveMessage m).2 = .ok r → r = m by
    cases hr : ((after c ops).receiveMessage m).2 with
    | error e => rw [hr] at h; cases h
    | ok r => rw [hr] at h; rw [H r hr] at h; cases h; rfl
  intro r hr
  cases m <;> simp only [receiveMessage, receiveError] at hr <;> grind

/-- An invocation ERROR answers its invocation and no other. -/
theorem C76_error_answers (ops : List (Op W)) (m : ErrorMsg) (hm : m.messageType.val = 68) (i : Int) :
    Unanswered c (trace c (ops ++ [.sendMessage (.error m)])) i ↔ Unanswered c (trace c ops) i ∧ i ≠ m.requestId.val := by
  rw [← inv_after, ← inv_after]
  have : after c (ops ++ [.sendMessage (.error m)]) = ((after c ops).sendMessage c (.error m)).1 := by
    rw [after_snoc]; rfl
  rw [this, inv_send]
  simp only [AnswersInvocation]
  constructor
  · rintro ⟨h1, h2⟩
    exact ⟨h1, fun e => h2 (.inr ⟨m, rfl, hm, e.symm⟩)⟩
  · rintro ⟨h1, h2⟩
    refine ⟨h1, ?_⟩
    rintro (⟨y, e, -⟩ | ⟨x, e, -, e'⟩)
    · cases e
    · cases e; exact h2 e'.symm

/-- In the worked history: CALL may be sent, RESULT may not; the invocation 11 may be answered either way. -/
example : MaySend plainCodec demo (.call ⟨.int 3, "q", none, none, [], none, none, false⟩) ∧
    ¬ MaySend plainCodec demo (.result ⟨.int 3, none, none, [], none, none, false⟩) ∧
    MaySend plainCodec demo (.yield_ ⟨.int 11, none, none, [], none, none, false⟩) ∧
    MaySend plainCodec demo (.error ⟨.int 68, .int 11, "e", none, none, []⟩) :=
  ⟨trivial, id, demo_inv, rfl⟩

/-! ## C77 -/

/-- Two histories leave the client in the same situation: the same requests are waiting, with the same withdrawals, the same
grants are held and the same invocations are unanswered. -/
structure SameSituation (ops ops' : List (Op W)) : Prop where
  outstanding : ∀ k i, Outstanding c ops k i ↔ Outstanding c ops' k i
  withdrawing : ∀ k i t, Withdrawing c ops k i t ↔ Withdrawing c ops' k i t
  granted : ∀ k t, Granted c (trace c ops) k t ↔ Granted c (trace c ops') k t
  unanswered : ∀ i, Unanswered c (trace c ops) i ↔ Unanswered c (trace c ops') i

/-- The same, of two sessions. -/
structure Alike (s s' : WAMPSession) : Prop where
  has : ∀ k i, s.has k i ↔ s'.has k i
  names : ∀ k i t, s.names k i t ↔ s'.names k i t
  grants : ∀ k t, s.grants k t ↔ s'.grants k t
  inv : ∀ i, i ∈ s.invocationRequests ↔ i ∈ s'.invocationRequests

theorem Alike.unsub {s s' : WAMPSession} (h : Alike s s') (i : Int) : s.unsubscribeRequests.get i = s'.unsubscribeRequests.get i := by
  apply Option.ext; intro t; exact h.names .unsubscribe i t

theorem Alike.unreg {s s' : WAMPSession} (h : Alike s s') (i : Int) : s.unregisterRequests.get i = s'.unregisterRequests.get i := by
  apply Option.ext; intro t; exact h.names .unregister i t

theorem Alike.send {s s' : WAMPSession} (h : Alike s s') (m : Message) :
    (s.sendMessage c m).2 = (s'.sendMessage c m).2 ∧ Alike (s.sendMessage c m).1 (s'.sendMessage c m).1 := by
  have hr : (s.sendMessage c m).2 = (s'.sendMessage c m).2 := by
    cases m <;> simp only [sendMessage]
    case yield_ m =>
      by_cases hi : m.requestId.val ∈ s.invocationRequests
      · rw [if_pos hi, if_pos ((h.inv _).1 hi)]
      · rw [if_neg hi, if_neg fun h' => hi ((h.inv _).2 h')]
    case publish m => split <;> rfl
    case error m => split <;> rfl
  refine ⟨hr, ⟨?_, ?_, ?_, ?_⟩⟩
  · intro k i; rw [has_send, has_send, h.has]
  · intro k i t; rw [names_send, names_send, h.names]
  · intro k t; rw [grants_send, grants_send, h.grants]
  · intro i; rw [inv_send, inv_send, h.inv]

theorem Alike.recv {s s' : WAMPSession} (h : Alike s s') (m : Message) :
    (s.receiveMessage m).2 = (s'.receiveMessage m).2 ∧ Alike (s.receiveMessage m).1 (s'.receiveMessage m).1 := by
  have hr : (s.receiveMessage m).2 = (s'.receiveMessage m).2 := by
    have hc := h.has .call; have hg := h.has .register; have hp := h.has .publish; have hs := h.has .subscribe
    have gs := h.grants .subscribe; have gr := h.grants .register
    have hu := h.unsub; have hv := h.unreg
    simp only [WAMPSession.has, WAMPSession.grants] at hc hg hp hs gs gr
    cases m <;> simp only [receiveMessage, receiveError, Dict.contains, hc, hg, hp, hs, gs, gr, hu, hv] <;> grind
  refine ⟨hr, ⟨?_, ?_, ?_, ?_⟩⟩
  · intro k i; rw [has_recv, has_recv, h.has]
  · intro k i t; rw [names_recv, names_recv, h.names]
  · intro k t
    cases k with
    | subscribe => 
      have := h.grants .subscribe t
      simp only [WAMPSession.grants, subs_recv, hr, h.names] at this ⊢; rw [this]
    | register =>
      have := h.grants .register t
      simp only [WAMPSession.grants, regs_recv, hr, h.names] at this ⊢; rw [this]
    | _ => exact Iff.rfl
  · intro i; rw [inv_recv, inv_recv, h.inv, hr]

theorem Alike.step {s s' : WAMPSession} (h : Alike s s') (op : Op W) :
    (s.step c op).2 = (s'.step c op).2 ∧ Alike (s.step c op).1 (s'.step c op).1 := by
  cases op with
  | sendMessage m => exact ⟨congrArg (Except.map Out.data) (h.send c m).1, (h.send c m).2⟩
  | receiveMessage m => exact ⟨congrArg (Except.map Out.msg) (h.recv m).1, (h.recv m).2⟩
  | receive d =>
    simp only [WAMPSession.step, receive]
    cases c.deserialize d with
    | error e => exact ⟨rfl, h⟩
    | ok m => exact ⟨congrArg _ (h.recv m).1, (h.recv m).2⟩

theorem alike_after {ops ops' : List (Op W)} (h : SameSituation c ops ops') : Alike (after c ops) (after c ops') :=
  ⟨fun k i => by rw [has_after, has_after, h.outstanding], fun k i t => by rw [names_after, names_after, h.withdrawing],
   fun k t => by rw [grants_after, grants_after, h.granted], fun i => by rw [inv_after, inv_after, h.unanswered]⟩

/-- Nothing else matters: after two histories that leave the client in the same situation, every further calls have the same
outcomes, whatever was done to get there. -/
theorem C77_situation_decides (ops ops' : List (Op W)) (h : SameSituation c ops ops') (more : List (Op W)) (x : Op W) :
    outcome c (ops ++ more) x = outcome c (ops' ++ more) x := by
  suffices H : Alike (after c (ops ++ more)) (after c (ops' ++ more)) from (H.step c x).1
  induction more using snoc_induction with
  | nil => rw [List.append_nil, List.append_nil]; exact alike_after c h
  | snoc more op ih =>
    rw [← List.append_assoc, ← List.append_assoc, after_snoc, after_snoc]
    exact (ih.step c op).2

/-- The type code an ERROR for such a request carries. -/
def errorCode : Kind → Int
  | .call => 48 | .register => 64 | .unregister => 66 | .publish => 16 | .subscribe => 32 | .unsubscribe => 34

theorem outstanding_shown (ops : List (Op W)) (k : Kind) (i : Int) :
    Outstanding c ops k i ↔
      ∃ out, outcome c ops (.receiveMessage (.error ⟨.int (errorCode k), .int i, "", none, none, []⟩)) = .ok out := by
  have := C46_reply_iff_outstanding c ops (.receiveMessage (.error ⟨.int (errorCode k), .int i, "", none, none, []⟩)) _ k i rfl
    (by cases k <;> rfl) (fun u h => by cases h) (fun u h => by cases h)
  constructor
  · intro h; exact ⟨_, this.1 h⟩
  · rintro ⟨out, h⟩
    refine Classical.byContradiction fun hn => ?_
    obtain ⟨⟨t, e⟩, -⟩ := this.2 hn
    rw [e] at h; cases h

/-- Grant `t` and `t'`, let the withdrawal `r` succeed. -/
def probe (r t t' : Int) : List (Op W) :=
  [.sendMessage (.subscribe ⟨.int 0, "", []⟩), .receiveMessage (.subscribed ⟨.int 0, .int t⟩),
   .sendMessage (.subscribe ⟨.int 0, "", []⟩), .receiveMessage (.subscribed ⟨.int 0, .int t'⟩),
   .receiveMessage (.unsubscribed ⟨.int r⟩)]

/-- The same for registrations. -/
def probeR (r t t' : Int) : List (Op W) :=
  [.sendMessage (.register ⟨.int 0, "", []⟩), .receiveMessage (.registered ⟨.int 0, .int t⟩),
   .sendMessage (.register ⟨.int 0, "", []⟩), .receiveMessage (.registered ⟨.int 0, .int t'⟩),
   .receiveMessage (.unregistered ⟨.int r⟩)]

theorem after_probe (ops : List (Op W)) (r t t' n : Int) (h : (after c ops).unsubscribeRequests.get r = some n)
    (hn : n = t ∨ n = t') : t ∈ (after c (ops ++ probe r t t')).subscriptions ↔ t ≠ n := by
  have e : ops ++ probe r t t' = ((((ops ++ [.sendMessage (.subscribe ⟨.int 0, "", []⟩)]) ++
    [.receiveMessage (.subscribed ⟨.int 0, .int t⟩)]) ++ [.sendMessage (.subscribe ⟨.int 0, "", []⟩)]) ++
    [.receiveMessage (.subscribed ⟨.int 0, .int t'⟩)]) ++ [.receiveMessage (.unsubscribed ⟨.int r⟩)] := by simp [probe]
  rw [e]
  simp only [after_snoc, step, sendMessage, receiveMessage, PyInt.val]
  grind [IdSet.mem_add, IdSet.mem_discard]

theorem after_probeR (ops : List (Op W)) (r t t' n : Int) (h : (after c ops).unregisterRequests.get r = some n)
    (hn : n = t ∨ n = t') : t ∈ (after c (ops ++ probeR r t t')).registrations ↔ t ≠ n := by
  have e : ops ++ probeR r t t' = ((((ops ++ [.sendMessage (.register ⟨.int 0, "", []⟩)]) ++
    [.receiveMessage (.registered ⟨.int 0, .int t⟩)]) ++ [.sendMessage (.register ⟨.int 0, "", []⟩)]) ++
    [.receiveMessage (.registered ⟨.int 0, .int t'⟩)]) ++ [.receiveMessage (.unregistered ⟨.int r⟩)] := by simp [probeR]
  rw [e]
  simp only [after_snoc, step, sendMessage, receiveMessage, PyInt.val]
  grind [IdSet.mem_add, IdSet.mem_discard]

theorem event_shown' (ops : List (Op W)) (m : Event) : m.subscriptionId.val ∈ (after c ops).subscriptions ↔
    ∃ out, outcome c ops (.receiveMessage (.event m)) = .ok out := by
  simp only [outcome, step, receiveMessage]
  by_cases h : m.subscriptionId.val ∈ (after c ops).subscriptions
  · rw [if_pos h]; exact ⟨fun _ => ⟨_, rfl⟩, fun _ => h⟩
  · rw [if_neg h]; exact ⟨fun h' => absurd h' h, fun ⟨_, h'⟩ => by cases h'⟩

theorem event_shown (ops : List (Op W)) (t : Int) : t ∈ (after c ops).subscriptions ↔
    ∃ out, outcome c ops (.receiveMessage (.event ⟨.int t, .int 0, none, none, []⟩)) = .ok out :=
  event_shown' c ops ⟨.int t, .int 0, none, none, []⟩

theorem invocation_shown' (ops : List (Op W)) (m : Invocation) : m.registrationId.val ∈ (after c ops).registrations ↔
    ∃ out, outcome c ops (.receiveMessage (.invocation m)) = .ok out := by
  simp only [outcome, step, receiveMessage]
  by_cases h : m.registrationId.val ∈ (after c ops).registrations
  · rw [if_pos h]; exact ⟨fun _ => ⟨_, rfl⟩, fun _ => h⟩
  · rw [if_neg h]; exact ⟨fun h' => absurd h' h, fun ⟨_, h'⟩ => by cases h'⟩

theorem invocation_shown (ops : List (Op W)) (t : Int) : t ∈ (after c ops).registrations ↔
    ∃ out, outcome c ops (.receiveMessage (.invocation ⟨.int 0, .int t, none, none, [], none, none, false⟩)) = .ok out :=
  invocation_shown' c ops ⟨.int 0, .int t, none, none, [], none, none, false⟩

theorem situation_half (hc : ∀ m, ∃ w, c.serialize m = .ok w) (ops ops' : List (Op W))
    (h : ∀ more x, outcome c (ops ++ more) x = outcome c (ops' ++ more) x) :
    (∀ k i t, Withdrawing c ops k i t → Withdrawing c ops' k i t) ∧
    (∀ i, Unanswered c (trace c ops) i → Unanswered c (trace c ops') i) := by
  have h0 : ∀ x, outcome c ops x = outcome c ops' x := fun x => by simpa using h [] x
  have ho : ∀ k i, Outstanding c ops k i ↔ Outstanding c ops' k i := by
    intro k i; rw [outstanding_shown, outstanding_shown, h0]
  constructor
  · intro k i t hw
    rw [← names_after] at hw ⊢
    have hh : (after c ops').has k i := by
      rw [has_after, ← ho, ← has_after]
      cases k <;> simp only [names] at hw <;> simp only [has, hw, Option.isSome_some]
    cases k <;> simp only [names] at hw ⊢ <;> simp only [has, Option.isSome_iff_exists] at hh <;> obtain ⟨t', ht'⟩ := hh
    · by_cases e : t = t'
      · rw [ht', e]
      · have h1 := after_probeR c ops i t t' t hw (.inl rfl)
        have h2 := after_probeR c ops' i t t' t' ht' (.inr rfl)
        rw [invocation_shown, h, ← invocation_shown, h2] at h1
        exact absurd rfl (h1.1 e)
    · by_cases e : t = t'
      · rw [ht', e]
      · have h1 := after_probe c ops i t t' t hw (.inl rfl)
        have h2 := after_probe c ops' i t t' t' ht' (.inr rfl)
        rw [event_shown, h, ← event_shown, h2] at h1
        exact absurd rfl (h1.1 e)
  · intro i hu
    refine Classical.byContradiction fun hn => ?_
    have h1 := (C49_yield_iff_unanswered c ops ⟨.int i, none, none, [], none, none, false⟩).1 hu
    obtain ⟨⟨t, h2⟩, -⟩ := (C49_yield_iff_unanswered c ops' ⟨.int i, none, none, [], none, none, false⟩).2 hn
    obtain ⟨w, hw⟩ := hc (.yield_ ⟨.int i, none, none, [], none, none, false⟩)
    rw [h0, h2, hw] at h1
    cases h1

/-- Conversely, two histories after which all further calls have the same outcomes leave the client in the same situation,
if messages can be serialized. -/
theorem C77_situation_shows (hc : ∀ m, ∃ w, c.serialize m = .ok w) (ops ops' : List (Op W))
    (h : ∀ more x, outcome c (ops ++ more) x = outcome c (ops' ++ more) x) : SameSituation c ops ops' := by
  have h0 : ∀ x, outcome c ops x = outcome c ops' x := fun x => by simpa using h [] x
  have a := situation_half c hc ops ops' h
  have b := situation_half c hc ops' ops fun more x => (h more x).symm
  refine ⟨?_, fun k i t => ⟨a.1 k i t, b.1 k i t⟩, ?_, fun i => ⟨a.2 i, b.2 i⟩⟩
  · intro k i; rw [outstanding_shown, outstanding_shown, h0]
  · intro k t
    rw [← grants_after, ← grants_after]
    cases k <;> simp only [grants]
    · rw [invocation_shown, invocation_shown, h0]
    · rw [event_shown, event_shown, h0]

/-- Two different histories, same situation: an acknowledged publication that was answered leaves no trace. -/
example : SameSituation plainCodec demo (demo ++
    [.sendMessage (.publish ⟨.int 5, "t", none, none, [(.str "acknowledge", .bool true)]⟩), .receiveMessage (.published ⟨.int 5, .int 1⟩)]) := by
  refine C77_situation_shows plainCodec (fun m => ⟨_, rfl⟩) _ _ fun more x => ?_
  have : after plainCodec demo = after plainCodec (demo ++ [.sendMessage (.publish ⟨.int 5, "t", none, none,
    [(.str "acknowledge", .bool true)]⟩), .receiveMessage (.published ⟨.int 5, .int 1⟩)]) := by rfl
  suffices H : ∀ l : List (Op Value), after plainCodec (demo ++ l) = after plainCodec ((demo ++ [.sendMessage (.publish ⟨.int 5,
      "t", none, none, [(.str "acknowledge", .bool true)]⟩), .receiveMessage (.published ⟨.int 5, .int 1⟩)]) ++ l) by
    unfold outcome; rw [H more]
  intro l
  induction l using snoc_induction with
  | nil => simpa using this
  | snoc l op ih => rw [← List.append_assoc, ← List.append_assoc, after_snoc, after_snoc, ih]

/-! ## C46 exactly -/

/-- The message says that a subscription or registration was withdrawn, and the session is waiting for that. -/
def SettlesWithdrawal (ops : List (Op W)) (m : Message) : Prop :=
  (∃ u, m = .unsubscribed u ∧ Outstanding c ops .unsubscribe u.requestId.val) ∨
  (∃ u, m = .unregistered u ∧ Outstanding c ops .unregister u.requestId.val)

theorem answered_not_outstanding (ops : List (Op W)) (op : Op W) (m : Message) (hm : incoming c op = some m) (k : Kind) (i : Int)
    (hr : replyTo m = some (k, i)) : ¬ Outstanding c (ops ++ [op]) k i := by
  rintro ⟨pre, q, post, e, ⟨r, hq, -⟩, hp⟩
  rcases List.eq_nil_or_concat post with hn | ⟨l, y, rfl⟩
  · rw [hn] at e
    have := (List.append_inj' e rfl).2
    simp only [List.cons.injEq, and_true] at this
    rw [← this] at hq; rw [hq] at hm; cases hm
  · rw [List.concat_eq_append, ← List.cons_append, ← List.append_assoc] at e
    have := (List.append_inj' e rfl).2
    simp only [List.cons.injEq, and_true] at this
    exact hp y (by simp) (this ▸ ⟨m, hm, hr⟩)

/-- A message that is refused leaves no trace, with exactly one exception: an UNSUBSCRIBED (UNREGISTERED) the session is waiting for.
It is refused if what it withdraws is not granted, and its request is forgotten all the same. -/
theorem C46_refused_exact (ops : List (Op W)) (op : Op W) (m : Message) (hm : incoming c op = some m) (e : Exc)
    (h : outcome c ops op = .error e) : NoEffect c ops op ↔ ¬ SettlesWithdrawal c ops m := by
  have hout : ∀ (k : Kind) (i : Int) (x : ErrorMsg), replyTo m = some (k, i) → replyTo (.error x) = some (k, i) → Outstanding c ops k i →
      ¬ NoEffect c ops op := by
    intro k i x hr hx ho hn
    have h1 := (C46_reply_iff_outstanding c ops (.receiveMessage (.error x)) (.error x) k i rfl hx
      (by intro u; simp) (by intro u; simp)).1 ho
    have h2 := (C46_reply_iff_outstanding c (ops ++ [op]) (.receiveMessage (.error x)) (.error x) k i rfl hx
      (by intro u; simp) (by intro u; simp)).2 (answered_not_outstanding c ops op m hm k i hr)
    obtain ⟨⟨t, h2⟩, -⟩ := h2
    have h3 := hn [] (.receiveMessage (.error x))
    rw [List.append_nil, h1, h2] at h3
    cases h3
  constructor
  · rintro hn (⟨u, rfl, ho⟩ | ⟨u, rfl, ho⟩)
    · exact hout .unsubscribe _ { messageType := .int 34, requestId := u.requestId, uri := "" } rfl rfl ho hn
    · exact hout .unregister _ { messageType := .int 66, requestId := u.requestId, uri := "" } rfl rfl ho hn
  · intro hw
    cases hr : replyTo m with
    | some ki =>
      obtain ⟨k, i⟩ := ki
      by_cases ho : Outstanding c ops k i
      · exfalso
        by_cases h1 : ∃ u, m = .unregistered u
        · obtain ⟨u, rfl⟩ := h1
          cases hr
          exact hw (.inr ⟨u, rfl, ho⟩)
        · by_cases h2 : ∃ u, m = .unsubscribed u
          · obtain ⟨u, rfl⟩ := h2
            cases hr
            exact hw (.inl ⟨u, rfl, ho⟩)
          · have := (C46_reply_iff_outstanding c ops op m k i hm hr (fun u hu => h1 ⟨u, hu⟩) (fun u hu => h2 ⟨u, hu⟩)).1 ho
            rw [h] at this; cases this
      · exact ((C46_replies_match_requests_partial c ops op m k i hm hr).2.1 ho).2
    | none =>
      by_cases h1 : ∃ x, m = .event x
      · obtain ⟨x, rfl⟩ := h1
        exact (C48_event_iff_granted c ops op x hm).2.2
      · by_cases h2 : ∃ x, m = .invocation x
        · obtain ⟨x, rfl⟩ := h2
          have := C48_invocation_iff_granted c ops op x hm
          by_cases hg : Granted c (trace c ops) .register x.registrationId.val
          · have := this.1 hg
            rw [h] at this; cases this
          · exact (this.2 hg).2
        · by_cases h3 : ∃ x, m = .goodbye x
          · exact (C76_goodbye_abort c ops op m hm (.inl h3)).2
          · by_cases h4 : ∃ x, m = .abort x
            · exact (C76_goodbye_abort c ops op m hm (.inr h4)).2
            · exact (C46_other_rejected c ops op m hm hr (fun x hx => h1 ⟨x, hx⟩) (fun x hx => h2 ⟨x, hx⟩) (fun x hx => h3 ⟨x, hx⟩)
                (fun x hx => h4 ⟨x, hx⟩)).2

/-- A reply is accepted exactly when its request is outstanding and, for UNSUBSCRIBED and UNREGISTERED, what the request named is
granted. -/
theorem C46_accepted_exact (ops : List (Op W)) (op : Op W) (m : Message) (k : Kind) (i : Int) (hm : incoming c op = some m)
    (hr : replyTo m = some (k, i)) :
    (∃ out, outcome c ops op = .ok out) ↔ Outstanding c ops k i ∧
      (∀ u, m = .unsubscribed u → ∃ t, Withdrawing c ops .unsubscribe i t ∧ Granted c (trace c ops) .subscribe t) ∧
      (∀ u, m = .unregistered u → ∃ t, Withdrawing c ops .unregister i t ∧ Granted c (trace c ops) .register t) := by
  have hp := C46_replies_match_requests_partial c ops op m k i hm hr
  constructor
  · rintro ⟨out, h⟩
    have ho := hp.1 out h
    refine ⟨ho, ?_, ?_⟩
    · rintro u rfl
      cases hr
      obtain ⟨t, ht⟩ := ((C46_outstanding_names c ops u.requestId.val).1).1 ho
      refine ⟨t, ht, ?_⟩
      refine Classical.byContradiction fun hg => ?_
      obtain ⟨x, hx⟩ := ((C46_unsubscribed c ops op u hm).2 t ht).2 hg
      rw [h] at hx; cases hx
    · rintro u rfl
      cases hr
      obtain ⟨t, ht⟩ := ((C46_outstanding_names c ops u.requestId.val).2).1 ho
      refine ⟨t, ht, ?_⟩
      refine Classical.byContradiction fun hg => ?_
      obtain ⟨x, hx⟩ := ((C46_unregistered c ops op u hm).2 t ht).2 hg
      rw [h] at hx; cases hx
  · rintro ⟨ho, h1, h2⟩
    by_cases hu : ∃ u, m = .unsubscribed u
    · obtain ⟨u, rfl⟩ := hu
      obtain ⟨t, ht, hg⟩ := h1 u rfl
      cases hr
      exact ⟨_, ((C46_unsubscribed c ops op u hm).2 t ht).1 hg⟩
    · by_cases hv : ∃ u, m = .unregistered u
      · obtain ⟨u, rfl⟩ := hv
        obtain ⟨t, ht, hg⟩ := h2 u rfl
        cases hr
        exact ⟨_, ((C46_unregistered c ops op u hm).2 t ht).1 hg⟩
      · exact ⟨_, (C46_reply_iff_outstanding c ops op m k i hm hr (fun u h => hv ⟨u, h⟩) (fun u h => hu ⟨u, h⟩)).1 ho⟩

/-- Both sides of the exception occur: the second UNSUBSCRIBED of a subscription withdrawn twice leaves a trace, one nobody waits for
does not. -/
example : let ops := demo ++ [.sendMessage (.unsubscribe ⟨.int 5, .int 7⟩), .receiveMessage (.unsubscribed ⟨.int 4⟩)]
    ¬ NoEffect plainCodec ops (.receiveMessage (.unsubscribed ⟨.int 5⟩)) ∧ NoEffect plainCodec ops (.receiveMessage (.unsubscribed ⟨.int 4⟩)) := by
  intro ops
  obtain ⟨h1, ⟨t, h2⟩, -⟩ := C46_fails_unsubscribed
  refine ⟨fun h => (C46_refused_exact plainCodec ops _ _ rfl _ h2).1 h (.inl ⟨⟨.int 5⟩, rfl, h1⟩), ?_⟩
  refine (C46_refused_exact plainCodec ops _ (.unsubscribed ⟨.int 4⟩) rfl (.valueError "received UNSUBSCRIBED for invalid request_id")
    rfl).2 ?_
  rintro (⟨u, e, h⟩ | ⟨u, e, _⟩)
  · cases e
    have := answered_not_outstanding plainCodec (demo ++ [.sendMessage (.unsubscribe ⟨.int 5, .int 7⟩)]) (.receiveMessage (.unsubscribed ⟨.int 4⟩))
      (.unsubscribed ⟨.int 4⟩) rfl .unsubscribe 4 rfl
    exact this h
  · cases e

end Wamp.WAMPSession
