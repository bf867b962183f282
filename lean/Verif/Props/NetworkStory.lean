import Verif.Proofs.NetLost
import Verif.Props.NetworkRpc

/-!
# Clients and router together: C71, C72, C115

The system is the one of `Spec/Network.lean`; what has happened to a call is told in the vocabulary of `Spec/Story.lean`.
C72 as stated is false of the code (`C72_fails_when_callee_leaves`): a callee that leaves takes the call with it.
-/

namespace Wamp.Spec.Net
open Wamp.Spec.Ses
variable {W : Type} (c : Codec W)

/-! ## C71 -/

/-- Where a RESULT comes from: when a client is about to receive one, its latest CALL with that request id was handled by
the router while another client (or itself) held the procedure; that client received an INVOCATION carrying what the CALL
carries, and answered it with a YIELD carrying what the RESULT carries. -/
theorem C71_result (sched : List Act) (hl : sched.length ≤ 2 ^ 53) (hg : GoodClients c sched) (s : Int) (r : Result)
    (h : NextDown c sched s (.result r)) :
    ∃ m callee inv y, r.requestId = m.requestId ∧ SameContent m inv ∧ y.requestId.val = inv.requestId.val ∧
      r.args = y.args ∧ r.kwargs = y.kwargs ∧
      Story sched s m [Sends callee (.yield_ y), Receives c callee (.invocation inv), RoutesTo c s m callee] := by
  obtain ⟨k, rest, hk, hd⟩ := h
  exact (hist_run c sched hl hg).res s k _ _ hk (by rw [hd]; exact List.mem_cons_self ..) rfl

/-- Where an ERROR for a call comes from: either a callee's ERROR for the INVOCATION of the latest CALL with that id, with
the same URI, arguments and details; or nobody held the procedure when the router handled that CALL. -/
theorem C71_error (sched : List Act) (hl : sched.length ≤ 2 ^ 53) (hg : GoodClients c sched) (s : Int) (e : ErrorMsg)
    (h : NextDown c sched s (.error e)) (he : e.messageType.val = 48) :
    ∃ m, e.requestId = m.requestId ∧
      ((∃ callee inv x, SameContent m inv ∧ x.requestId.val = inv.requestId.val ∧ x.messageType.val = 68 ∧
          e.uri = x.uri ∧ e.args = x.args ∧ e.kwargs = x.kwargs ∧ e.details = x.details ∧
          Story sched s m [Sends callee (.error x), Receives c callee (.invocation inv), RoutesTo c s m callee]) ∨
        (e.uri = "wamp.error.no_such_procedure" ∧ Story sched s m [RoutesNowhere c s m])) := by
  obtain ⟨k, rest, hk, hd⟩ := h
  exact (hist_run c sched hl hg).res s k _ e.requestId.val hk (by rw [hd]; exact List.mem_cons_self ..)
    (by simp [replyTo, kindOfCode, he])

/-- Where an INVOCATION comes from, whatever clients do: a client sent a CALL with the same arguments and payload, and the
router handled it while the invoked client held its procedure. -/
theorem C71_invocation (sched : List Act) (hl : sched.length ≤ 2 ^ 53) (t : Int) (inv : Invocation)
    (h : NextDown c sched t (.invocation inv)) :
    ∃ s m, SameContent m inv ∧ Chain [] [RoutesTo c s m t, Sends s (.call m)] sched := by
  obtain ⟨k, rest, hk, hd⟩ := h
  exact (sent_run c sched hl).inv t k inv hk (by rw [hd]; exact List.mem_cons_self ..)

/-- One answer per CALL: between two answers to the same request id that a client receives, it has sent a CALL with that
id. -/
theorem C71_one_answer (pre mid : List Act) (s r : Int) (hl : (pre ++ .deliver s :: mid).length ≤ 2 ^ 53)
    (hg : GoodClients c (pre ++ .deliver s :: mid)) (b b' : Message) (h : NextDown c pre s b) (hb : replyTo b = some (.call, r))
    (h' : NextDown c (pre ++ .deliver s :: mid) s b') (hb' : replyTo b' = some (.call, r)) :
    ∃ m, .send s (.call m) ∈ mid ∧ m.requestId.val = r := by
  obtain ⟨k, rest, hk, hd⟩ := h
  obtain ⟨k', rest', hk', hd'⟩ := h'
  have e : pre ++ .deliver s :: mid = (pre ++ [.deliver s]) ++ mid := by simp
  have hh : (WAMPSession.after c k'.calls).has .call r :=
    ((rpc_run c _ hl hg).conn s k' hk').req.has _ _ (mem_inFlight.2 ⟨rfl, .inr ⟨b', by rw [hd']; exact List.mem_cons_self .., hb'⟩⟩)
  rw [e] at hk'
  obtain ⟨m, h1, h2⟩ := has_since c (pre ++ [.deliver s]) (kd := .call) (i := r) (by
    intro k1 hk1 h1
    rw [run_snoc] at hk1
    rcases has_net c hk1 h1 with ⟨k0, g1, -, g3⟩ | ⟨m, e, -⟩
    · rw [hk] at g1; cases g1; exact g3 ⟨b, rest, rfl, hd, hb⟩
    · cases e) mid k' hk' hh
  cases m <;> simp only [requestOf] at h2 <;> try cases h2
  · exact ⟨_, h1, rfl⟩
  · split at h2 <;> cases h2

/-- The example schedule, with the second answer routed as well: client 1 has a RESULT for its first CALL to receive, and
then an ERROR for its second. -/
def demoStory : List Act := demoRpc ++ [.route 2]

theorem demoStory_good : GoodClients WAMPSession.plainCodec demoStory := by
  refine ⟨fresh_of_freshB _ _ _ (by decide), ?_, errors_of_errorsB _ _ (by decide), distinct_of_nodup (by decide)⟩
  intro s m hm
  rcases List.mem_append.1 hm with hm | hm
  · exact demoRpc_good.plain s m hm
  · cases List.mem_singleton.1 hm

example : ∃ r, NextDown WAMPSession.plainCodec demoStory 1 (.result r) ∧ r.requestId = .int 1 ∧ r.args = some [.int 8] :=
  ⟨_, ⟨_, _, rfl, rfl⟩, rfl, rfl⟩
example : ∃ e, NextDown WAMPSession.plainCodec (demoStory ++ [.deliver 1]) 1 (.error e) ∧ e.requestId = .int 2 ∧ e.uri = "e" ∧
    e.messageType.val = 48 := ⟨_, ⟨_, _, rfl, rfl⟩, rfl, rfl, rfl⟩
example : ∃ inv, NextDown WAMPSession.plainCodec (demoRpc.take 9) 2 (.invocation inv) ∧ inv.args = some [.int 7] :=
  ⟨_, ⟨_, _, rfl, rfl⟩, rfl⟩

/-- The assumption about ERRORs is needed: client 3 never held the procedure, yet its ERROR is what client 1 gets. -/
theorem C71_needs_errors_answer : FreshRequests WAMPSession.plainCodec rpc (rogueError.take 11) ∧
    DistinctSessions (rogueError.take 11) ∧ ∃ e, NextDown WAMPSession.plainCodec (rogueError.take 11) 1 (.error e) ∧
      e.messageType.val = 48 ∧ e.uri = "e" ∧ (∀ m, .send 2 m ∈ rogueError.take 11 → ∃ x, m = .register x) := by
  refine ⟨fresh_of_freshB _ _ _ (by decide), distinct_of_nodup (by decide), _, ⟨_, _, rfl, rfl⟩, rfl, rfl, ?_⟩
  intro m hm
  simp [rogueError, joins, callP, errorOf] at hm
  exact ⟨_, hm⟩

/-! ## C72 -/

/-- Who has a pending call in its hands. -/
theorem inHands_of_live {sched : List Act} (hl : sched.length < 2 ^ 53) (hg : GoodClients c sched) {x : Rpc.Pending}
    (hx : x ∈ pendings (run c sched).dealer) (hc : ((run c sched).conns x.caller).isSome) (hlv : Live c (run c sched).conns x) :
    InHands c sched x.caller x.request.val := by
  have hdl : (run c sched).dealer.length < 2 ^ 53 := Nat.lt_of_le_of_lt (base_run c sched (by omega)).dl hl
  obtain ⟨kt, ht, htok⟩ := hlv
  obtain ⟨m, inv, g1, g2, g3, g⟩ := token_story hdl (hist_run c sched (by omega) hg) hx hc ht htok
  refine ⟨x.callee, kt, m, inv, g1, g2, ht, ?_⟩
  rw [g3]
  rcases g with ⟨ha, g⟩ | ⟨ha, g⟩ | ⟨a, ha, e, g⟩
  · exact .inl ⟨ha, g⟩
  · exact .inr (.inl ⟨(WAMPSession.inv_after c _ _).1 ha, g⟩)
  · exact .inr (.inr ⟨a, ha, answerTo_of e, g⟩)

/-- Where a call is, whatever happens: a CALL a client is waiting for is on its way to the router, or its answer is on its
way back, or a connected client has the INVOCATION for it, from that very CALL, on its way, in hand, or just answered; or it
is lost in one of the three ways of `Lost`. -/
theorem C115_somewhere_or_lost (sched : List Act) (hl : sched.length < 2 ^ 53) (hg : GoodClients c sched)
    (s : Int) (k : Conn W) (hk : (run c sched).conns s = some k) (r : Int) (hr : Outstanding c k.calls .call r) :
    (∃ m, .call m ∈ k.up ∧ m.requestId.val = r) ∨ (∃ b ∈ k.down, replyTo b = some (.call, r)) ∨ InHands c sched s r ∨
      Lost c sched s r := by
  rcases served_run c sched (by omega) hg s k r hk ((WAMPSession.has_after c k.calls _ _).2 hr) with h | ⟨x, hx, rfl, rfl, hlv⟩ | h
  · rcases mem_inFlight.1 h with ⟨-, ⟨m, hm, e⟩ | ⟨b, hb, e⟩⟩
    · left
      cases m <;> simp only [requestOf] at e <;> try cases e
      · exact ⟨_, hm, rfl⟩
      · split at e <;> cases e
    · exact .inr (.inl ⟨b, hb, e⟩)
  · exact .inr (.inr (.inl (inHands_of_live c hl hg hx (by rw [hk]; rfl) hlv)))
  · exact .inr (.inr (.inr h))

/-- And what is nowhere stays nowhere: whatever clients and router do from then on, the client gets no answer and goes on
waiting for as long as it stays. -/
theorem C115_for_ever (sched more : List Act) (hl : (sched ++ more).length ≤ 2 ^ 53) (hg : GoodClients c (sched ++ more))
    (s : Int) (k : Conn W) (hk : (run c sched).conns s = some k) (r : Int) (hr : Outstanding c k.calls .call r)
    (h1 : ¬ ∃ m, .call m ∈ k.up ∧ m.requestId.val = r) (h2 : ¬ ∃ b ∈ k.down, replyTo b = some (.call, r))
    (h3 : ¬ InHands c sched s r) (hs : .leave s ∉ more) :
    ∃ k', (run c (sched ++ more)).conns s = some k' ∧ Outstanding c k'.calls .call r ∧
      ∀ b ∈ k'.down, replyTo b ≠ some (.call, r) := by
  cases more with
  | nil => rw [List.append_nil]; exact ⟨k, hk, hr, fun b hb e => h2 ⟨b, hb, e⟩⟩
  | cons a more =>
    have hl' : sched.length < 2 ^ 53 := by rw [List.length_append, List.length_cons] at hl; omega
    have hg' : ∀ more, GoodClients c (sched ++ more) → GoodClients c sched := by
      intro more
      induction more using snoc_induction with
      | nil => rw [List.append_nil]; exact fun h => h
      | snoc more a ih => rw [← List.append_assoc]; exact fun h => ih h.init
    have hstuck : Stuck c (run c sched) s r := by
      refine ⟨k, hk, (WAMPSession.has_after c k.calls _ _).2 hr, ?_, ?_⟩
      · rw [mem_inFlight]
        rintro ⟨-, ⟨m, hm, e⟩ | ⟨b, hb, e⟩⟩
        · refine h1 ?_
          cases m <;> simp only [requestOf] at e <;> try cases e
          · exact ⟨_, hm, rfl⟩
          · split at e <;> cases e
        · exact h2 ⟨b, hb, e⟩
      · rintro x hx rfl rfl hlv
        exact h3 (inHands_of_live c hl' (hg' _ hg) hx (by rw [hk]; rfl) hlv)
    obtain ⟨k', g1, g2, g3, -⟩ := stuck_run c sched hstuck (a :: more) hl hg hs
    exact ⟨k', g1, (WAMPSession.has_after c k'.calls _ _).1 g2, fun b hb e => g3 (mem_inFlight.2 ⟨rfl, .inr ⟨b, hb, e⟩⟩)⟩

theorem Story.sent {sched : List Act} {s : Int} {m : Call} {es : List Ev} (h : Story sched s m es) : .send s (.call m) ∈ sched := by
  obtain ⟨pre, post, rfl, -⟩ := h; simp

theorem Story.took {sched : List Act} {s : Int} {m : Call} {es : List Ev} {e : Ev} (h : Story sched s m (e :: es)) :
    ∃ before, ∃ a ∈ sched, e before a := by
  obtain ⟨pre, post, rfl, -, q, a, r, rfl, h, -⟩ := h
  exact ⟨_, a, by simp, h⟩

/-- No call is lost: as long as nobody leaves and everything sent can be serialized, a CALL a client is waiting for is on
its way to the router, or its answer is on its way back, or a connected client has the INVOCATION for it, from that very
CALL, on its way, in hand, or just answered. -/
theorem C72_where_calls_are_partial (sched : List Act) (hl : sched.length < 2 ^ 53) (hg : GoodClients c sched)
    (hn : NoLeaves sched) (hs : Serializes c sched) (s : Int) (k : Conn W) (hk : (run c sched).conns s = some k) (r : Int)
    (hr : Outstanding c k.calls .call r) :
    (∃ m, .call m ∈ k.up ∧ m.requestId.val = r) ∨ (∃ b ∈ k.down, replyTo b = some (.call, r)) ∨ InHands c sched s r := by
  have hser : ∀ {s m}, .send s m ∈ sched → ¬ Refused c m := by
    rintro s m hm ⟨e, he⟩
    obtain ⟨w, hw⟩ := hs s m hm
    rw [hw] at he; cases he
  rcases C115_somewhere_or_lost c sched hl hg s k hk r hr with h | h | h | ⟨m, -, ⟨h1, h2⟩ | ⟨t, h⟩ | ⟨t, inv, a, -, -, h1, h2⟩⟩
  · exact .inl h
  · exact .inr (.inl h)
  · exact .inr (.inr h)
  · exact absurd h1 (hser h2.sent)
  · obtain ⟨_, a, ha, rfl⟩ := h.took; exact absurd ha (hn t)
  · obtain ⟨_, _, ha, rfl⟩ := h2.took; exact absurd h1 (hser ha)

/-- Nothing is in a channel, and no client has an invocation to answer. -/
def Quiet (sched : List Act) : Prop :=
  ∀ s k, (run c sched).conns s = some k → k.up = [] ∧ k.down = [] ∧ ∀ i, ¬ Unanswered c (WAMPSession.trace c k.calls) i

/-- So when the network is quiet, every CALL a client is waiting for is lost. -/
theorem C115_quiet (sched : List Act) (hl : sched.length < 2 ^ 53) (hg : GoodClients c sched) (hq : Quiet c sched) (s : Int)
    (k : Conn W) (hk : (run c sched).conns s = some k) (r : Int) (hr : Outstanding c k.calls .call r) : Lost c sched s r := by
  obtain ⟨q1, q2, -⟩ := hq s k hk
  rcases C115_somewhere_or_lost c sched hl hg s k hk r hr with ⟨m, hm, -⟩ | ⟨b, hb, -⟩ | ⟨t, kt, m, inv, -, -, ht, h⟩ | h
  · rw [q1] at hm; cases hm
  · rw [q2] at hb; cases hb
  · obtain ⟨p1, p2, p3⟩ := hq t kt ht
    rcases h with ⟨h, -⟩ | ⟨h, -⟩ | ⟨a, h, -⟩
    · rw [p2] at h; cases h
    · exact absurd h (p3 _)
    · rw [p1] at h; cases h
  · exact h

/-- If nobody has left and everything sent could be serialized: none. -/
theorem C72_quiet_partial (sched : List Act) (hl : sched.length < 2 ^ 53) (hg : GoodClients c sched)
    (hn : NoLeaves sched) (hs : Serializes c sched) (hq : Quiet c sched) (s : Int) (k : Conn W)
    (hk : (run c sched).conns s = some k) (r : Int) : ¬ Outstanding c k.calls .call r := by
  intro hr
  obtain ⟨q1, q2, -⟩ := hq s k hk
  rcases C72_where_calls_are_partial c sched hl hg hn hs s k hk r hr with ⟨m, hm, -⟩ | ⟨b, hb, -⟩ | ⟨t, kt, m, inv, -, -, ht, h⟩
  · rw [q1] at hm; cases hm
  · rw [q2] at hb; cases hb
  · obtain ⟨p1, p2, p3⟩ := hq t kt ht
    rcases h with ⟨h, -⟩ | ⟨h, -⟩ | ⟨a, h, -⟩
    · rw [p2] at h; cases h
    · exact p3 _ h
    · rw [p1] at h; cases h

theorem serializes_plain (sched : List Act) : Serializes WAMPSession.plainCodec sched := fun _ _ _ => ⟨_, rfl⟩

/-- The example: nobody leaves; both CALLs of client 1 are outstanding in the middle of the schedule, one as an INVOCATION
on its way, one still in the channel to the router. -/
example : NoLeaves (demoRpc.take 8) ∧ GoodClients WAMPSession.plainCodec (demoRpc.take 8) ∧
    ∃ k k2, (run WAMPSession.plainCodec (demoRpc.take 8)).conns 1 = some k ∧ k.up = [callP 2] ∧
      Outstanding WAMPSession.plainCodec k.calls .call 1 ∧ Outstanding WAMPSession.plainCodec k.calls .call 2 ∧
      (run WAMPSession.plainCodec (demoRpc.take 8)).conns 2 = some k2 ∧ ∃ inv, k2.down = [.invocation inv] := by
  refine ⟨?_, ⟨fresh_of_freshB _ _ _ (by decide), ?_, errors_of_errorsB _ _ (by decide), distinct_of_nodup (by decide)⟩,
    _, _, rfl, rfl, (WAMPSession.has_after _ _ _ _).1 (by decide), (WAMPSession.has_after _ _ _ _).1 (by decide), rfl, _, rfl⟩
  · intro s h; simp [demoRpc, joins, callP] at h
  · intro s m hm; exact demoRpc_good.plain s m (List.mem_of_mem_take hm)

/-- The whole exchange, to the end: the network is quiet and everything has been answered. -/
def demoDone : List Act := demoRpc ++ [.route 2, .deliver 1, .deliver 1, .deliver 2]

example : NoLeaves demoDone ∧ GoodClients WAMPSession.plainCodec demoDone ∧
    ∃ k, (run WAMPSession.plainCodec demoDone).conns 1 = some k ∧ k.up = [] ∧ k.down = [] ∧ k.calls.length = 4 := by
  refine ⟨?_, ⟨fresh_of_freshB _ _ _ (by decide), ?_, errors_of_errorsB _ _ (by decide), distinct_of_nodup (by decide)⟩,
    _, rfl, rfl, rfl, rfl⟩
  · intro s h; simp [demoDone, demoRpc, joins, callP, yieldOf, errorOf] at h
  · intro s m hm
    rcases List.mem_append.1 hm with hm | hm
    · exact demoRpc_good.plain s m hm
    · simp at hm

/-- C72 is false of the code: the callee leaves after the INVOCATION was sent to it; then the network is quiet, and the
caller is still waiting. -/
def calleeLeaves : List Act :=
  [joins 1, joins 2, .send 2 (.register ⟨.int 1, "p", []⟩), .route 2, .deliver 2, .send 1 (callP 1), .route 1, .leave 2]

theorem C72_fails_when_callee_leaves : GoodClients WAMPSession.plainCodec calleeLeaves ∧
    Serializes WAMPSession.plainCodec calleeLeaves ∧ Quiet WAMPSession.plainCodec calleeLeaves ∧
    ∃ k, (run WAMPSession.plainCodec calleeLeaves).conns 1 = some k ∧ Outstanding WAMPSession.plainCodec k.calls .call 1 := by
  refine ⟨⟨fresh_of_freshB _ _ _ (by decide), ?_, errors_of_errorsB _ _ (by decide), distinct_of_nodup (by decide)⟩,
    serializes_plain _, ?_, _, rfl, (WAMPSession.has_after _ _ _ _).1 (by decide)⟩
  · intro s m hm
    simp [calleeLeaves, joins, callP] at hm
    rw [hm.2]; rfl
  · intro s k hk
    by_cases e1 : s = 1
    · subst e1; cases hk
      refine ⟨rfl, rfl, fun i h => ?_⟩
      have := (WAMPSession.inv_after _ _ _).2 h
      cases this
    · exfalso
      have : (run WAMPSession.plainCodec calleeLeaves).conns s = none := by
        by_cases e2 : s = 2
        · subst e2; rfl
        · have hf := (base_run WAMPSession.plainCodec calleeLeaves (by decide)).dk s
          cases h : (run WAMPSession.plainCodec calleeLeaves).conns s with
          | none => rfl
          | some k' =>
            rw [h] at hf
            have := hf.2 rfl
            have hk : (Rpc.view (Dealer.trace (run WAMPSession.plainCodec calleeLeaves).dealer)).known = [1] := by decide
            rw [hk] at this
            exact absurd (List.mem_singleton.1 this) e1
      rw [this] at hk; cases hk

/-- A serializer that refuses YIELDs. -/
def noYields : Codec Value :=
  ⟨fun v => match v with | .list (.int 70 :: _) => .error (.external "dumps") | v => .ok v, .ok⟩

/-- The callee receives the INVOCATION and yields, and its serializer refuses the YIELD. -/
def yieldRefused : List Act :=
  [joins 1, joins 2, .send 2 (.register ⟨.int 1, "p", []⟩), .route 2, .deliver 2, .send 1 (callP 1), .route 1, .deliver 2,
    .send 2 (yieldOf 2)]

/-- Then the caller waits, and nobody has anything to do with the call any more, whoever stays. -/
example : GoodClients noYields yieldRefused ∧ NoLeaves yieldRefused ∧
    ∃ k k2, (run noYields yieldRefused).conns 1 = some k ∧ Outstanding noYields k.calls .call 1 ∧ k.up = [] ∧ k.down = [] ∧
      (run noYields yieldRefused).conns 2 = some k2 ∧ k2.up = [] ∧ k2.down = [] ∧
      ∀ i, ¬ Unanswered noYields (WAMPSession.trace noYields k2.calls) i := by
  refine ⟨⟨fresh_of_freshB _ _ _ (by decide), ?_, errors_of_errorsB _ _ (by decide), distinct_of_nodup (by decide)⟩, ?_,
    _, _, rfl, (WAMPSession.has_after _ _ _ _).1 (by decide), rfl, rfl, rfl, rfl, rfl,
    fun i h => by cases (WAMPSession.inv_after _ _ _).2 h⟩
  · intro s m hm
    simp [yieldRefused, joins, callP, yieldOf] at hm
    rw [hm.2]; rfl
  · intro s h; simp [yieldRefused, joins, callP, yieldOf] at h

/-- The caller's own serializer refuses the CALL. -/
example : GoodClients WAMPSession.brokenCodec [joins 1, .send 1 (callP 1)] ∧
    ∃ k, (run WAMPSession.brokenCodec [joins 1, .send 1 (callP 1)]).conns 1 = some k ∧
      Outstanding WAMPSession.brokenCodec k.calls .call 1 ∧ k.up = [] := by
  refine ⟨⟨fresh_of_freshB _ _ _ (by decide), ?_, errors_of_errorsB _ _ (by decide), distinct_of_nodup (by decide)⟩,
    _, rfl, (WAMPSession.has_after _ _ _ _).1 (by decide), rfl⟩
  intro s m hm
  simp [joins, callP] at hm
  rw [hm.2]; rfl

end Wamp.Spec.Net
