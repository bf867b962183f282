import Verif.Proofs.NetRpc
import Verif.Props.Network

/-!
# Clients and router together: C68

The system is the one of `Spec/Network.lean`.  C68 as stated is false of the code (`C68_fails_for_unsolicited_error`):
the session lets its application send an invocation ERROR for anything, and the dealer rejects it if there is no such
invocation; worse, it accepts it if there is one at another client.  What holds is proved for clients that send such an
ERROR only for an invocation they have received and not answered (`GoodClients`).
-/

namespace Wamp.Spec.Net
open Wamp.Spec.Ses
variable {W : Type} (c : Codec W)

/-! ## A worked schedule used by the examples -/

/-- A CALL of procedure `p`. -/
def callP (r : Int) : Message := .call ⟨.int r, "p", some [.int 7], none, [], none, none, false⟩
/-- A YIELD. -/
def yieldOf (i : Int) : Message := .yield_ ⟨.int i, some [.int 8], none, [], none, none, false⟩
/-- An invocation ERROR. -/
def errorOf (i : Int) : Message := .error ⟨.int 68, .int i, "e", none, none, []⟩

/-- Client 2 registers `p`; client 1 calls it twice; client 2 answers the first call with a YIELD and the second with an
ERROR, the YIELD is routed; meanwhile 2 asks to unregister. -/
def demoRpc : List Act :=
  [joins 1, joins 2, .send 2 (.register ⟨.int 1, "p", []⟩), .route 2, .deliver 2,
   .send 1 (callP 1), .send 1 (callP 2), .route 1, .route 1, .deliver 2, .send 2 (yieldOf 2),
   .send 2 (.unregister ⟨.int 2, .int 1⟩), .deliver 2, .send 2 (errorOf 3), .route 2, .route 2]

/-- Decides `ErrorsAnswer` for a concrete schedule. -/
def errorsB : Net W → List Act → Bool
  | _, [] => true
  | n, a :: l =>
    (match a with
     | .send s (.error m) =>
       (match n.conns s with
        | none => true
        | some k => !decide (m.messageType.val = 68) || decide (m.requestId.val ∈ (WAMPSession.after c k.calls).invocationRequests))
     | _ => true) && errorsB (n.step c a) l

theorem errors_of_errorsB (sched : List Act) (h : errorsB c {} sched = true) : ErrorsAnswer c sched := by
  suffices H : ∀ (l pre : List Act), errorsB c (run c pre) l = true → ∀ mid s m post, l = mid ++ .send s (.error m) :: post →
      ∀ kc, (run c (pre ++ mid)).conns s = some kc → m.messageType.val = 68 →
        Unanswered c (WAMPSession.trace c kc.calls) m.requestId.val by
    intro pre s m post e; exact H sched [] h pre s m post e
  intro l
  induction l with
  | nil => intro pre _ mid s m post e; simp at e
  | cons a l ih =>
    intro pre hb mid s m post e kc hk ht
    simp only [errorsB, Bool.and_eq_true] at hb
    obtain ⟨h1, h2⟩ := hb
    cases mid with
    | nil =>
      simp only [List.nil_append, List.cons.injEq] at e
      rw [List.append_nil] at hk
      rw [e.1] at h1
      simp only [hk, ht, decide_true, Bool.not_true, Bool.false_or, decide_eq_true_eq] at h1
      exact (WAMPSession.inv_after c _ _).1 h1
    | cons b mid =>
      simp only [List.cons_append, List.cons.injEq] at e
      obtain ⟨rfl, e⟩ := e
      exact ih (pre ++ [a]) (by rw [run_snoc]; exact h2) mid s m post e kc (by simpa using hk) ht

/-- The session ids given out. -/
def joinIds : List Act → List Int
  | [] => []
  | .join d :: l => d.sessionId.val :: joinIds l
  | _ :: l => joinIds l

theorem mem_joinIds {l : List Act} {d : SessionDetails} (h : .join d ∈ l) : d.sessionId.val ∈ joinIds l := by
  induction l with
  | nil => cases h
  | cons a l ih =>
    rcases List.mem_cons.1 h with rfl | h'
    · exact List.mem_cons_self ..
    · cases a <;> simp only [joinIds] <;> first | exact ih h' | exact List.mem_cons_of_mem _ (ih h')

theorem distinct_of_nodup {sched : List Act} (h : (joinIds sched).Nodup) : DistinctSessions sched := by
  intro pre
  induction pre generalizing sched with
  | nil =>
    rintro d mid d' post rfl e
    simp only [List.nil_append, List.cons_append, joinIds, List.nodup_cons] at h
    exact h.1 (e ▸ mem_joinIds (by simp))
  | cons a pre ih =>
    rintro d mid d' post rfl
    refine ih (sched := pre ++ .join d :: mid ++ .join d' :: post) ?_ d mid d' post rfl
    cases a <;> simp only [List.cons_append, joinIds] at h ⊢ <;> first | exact h | exact (List.nodup_cons.1 h).2

theorem demoRpc_good : GoodClients WAMPSession.plainCodec demoRpc := by
  refine ⟨fresh_of_freshB _ _ _ (by decide), ?_, errors_of_errorsB _ _ (by decide), distinct_of_nodup (by decide)⟩
  intro s m hm
  simp only [demoRpc, joins, callP, yieldOf, errorOf, List.mem_cons, Act.send.injEq, Message.call.injEq, reduceCtorEq, and_false,
    false_or, List.not_mem_nil, or_false] at hm
  rcases hm with ⟨-, rfl⟩ | ⟨-, rfl⟩ <;> rfl

/-! ## C68 -/

/-- No client ever rejects a message the dealer sent it: whenever such a message is next in a client's channel, the
client's session accepts it. -/
theorem C68_client_never_rejects_partial (sched : List Act) (hl : sched.length ≤ 2 ^ 53) (hg : GoodClients c sched) (s : Int)
    (k : Conn W) (hk : (run c sched).conns s = some k) (m : Message) (rest : List Message) (hd : k.down = m :: rest)
    (hm : isRpc m = true) : WAMPSession.outcome c k.calls (.receiveMessage m) = .ok (.msg m) := by
  have h := (((rpc_run c sched hl hg).conn s k hk).deliver hd).1 hm
  rw [WAMPSession.outcome_incoming c (m := m) rfl, h]; rfl

/-- The dealer never rejects a YIELD or ERROR that a client's session let it send: whenever one is next in a client's
channel, the dealer turns it into an answer for the caller of the invocation it is about, with that call's request id;
and if the caller is still connected, it is waiting for exactly this answer. -/
theorem C68_dealer_never_rejects_partial (sched : List Act) (hl : sched.length < 2 ^ 53) (hg : GoodClients c sched) (s : Int)
    (k : Conn W) (hk : (run c sched).conns s = some k) (m : Message) (rest : List Message) (hu : k.up = m :: rest)
    (hm : (∃ y, m = .yield_ y) ∨ ∃ e, m = .error e) :
    ∃ a q r, Dealer.outcome (run c sched).dealer (.receiveMessage s m) = .ok (.reply ⟨a, q⟩) ∧ replyTo a = some (.call, r) ∧
      ∀ kq, (run c sched).conns q = some kq → Outstanding c kq.calls .call r ∧ ∀ a' ∈ kq.down, replyTo a' ≠ some (.call, r) := by
  have h := rpc_run c sched (by omega) hg
  have hdl : (run c sched).dealer.length < 2 ^ 53 := Nat.lt_of_le_of_lt (base_run c sched (by omega)).dl hl
  have ha : ∃ i, ansId m = some i := by rcases hm with ⟨y, rfl⟩ | ⟨e, rfl⟩ <;> exact ⟨_, rfl⟩
  obtain ⟨i, ha⟩ := ha
  obtain ⟨x, hx, rfl, rfl, hw, -⟩ := answer_head h hk hu ha
  obtain ⟨a, ho, -, -, a3, -⟩ := answer_facts _ hdl hx hw.map ha
    (fun e e' => h.errs _ k e hk (by rw [hu, e']; exact List.mem_cons_self ..))
  refine ⟨a, x.caller, x.request.val, ho, a3, ?_⟩
  intro kq hkq
  obtain ⟨g1, g2⟩ := hw.wait kq hkq
  refine ⟨(WAMPSession.has_after c kq.calls _ _).1 g1, ?_⟩
  intro a' ha' e
  exact g2 (mem_inFlight.2 ⟨rfl, .inr ⟨a', ha', e⟩⟩)

/-- When nothing is on its way to a client, the registrations it has been granted are exactly those it holds at the
dealer. -/
theorem C68_agreement_partial (sched : List Act) (hl : sched.length ≤ 2 ^ 53) (hg : GoodClients c sched) (s : Int)
    (k : Conn W) (hk : (run c sched).conns s = some k) (hd : k.down = []) (i : Int) :
    Granted c (WAMPSession.trace c k.calls) .register i ↔
      ∃ p, (⟨s, p, i⟩ : Rpc.Reg) ∈ (Rpc.view (Dealer.trace (run c sched).dealer)).held := by
  have h := ((rpc_run c sched hl hg).conn s k hk).rep
  rw [hd] at h
  rw [← WAMPSession.grants_after]; exact h i

/-- The hypotheses are met in the example schedule: client 2 has UNREGISTERED to receive, and its ERROR for the second
call is next to be routed; client 1 has a RESULT to receive. -/
example : ∃ k r, (run WAMPSession.plainCodec demoRpc).conns 1 = some k ∧ k.down = [.result r] ∧ isRpc (.result r) = true :=
  ⟨_, _, rfl, rfl, rfl⟩
example : ∃ k u, (run WAMPSession.plainCodec demoRpc).conns 2 = some k ∧ k.down = [.unregistered u] ∧ k.up = [errorOf 3] :=
  ⟨_, _, rfl, rfl, rfl⟩

/-- C68 is false of the code: client 1 sends an invocation ERROR although it has received no invocation; its session lets it,
and the dealer rejects it. -/
def strayError : List Act := [joins 1, .send 1 (errorOf 9)]

theorem C68_fails_for_unsolicited_error : FreshRequests WAMPSession.plainCodec rpc strayError ∧ PlainCalls strayError ∧
    DistinctSessions strayError ∧ ∃ k e, (run WAMPSession.plainCodec strayError).conns 1 = some k ∧ k.up = [errorOf 9] ∧
      Dealer.outcome (run WAMPSession.plainCodec strayError).dealer (.receiveMessage 1 (errorOf 9)) = .error e := by
  refine ⟨fresh_of_freshB _ _ _ (by decide), ?_, distinct_of_nodup (by decide), _, _, rfl, rfl, rfl⟩
  intro s m hm; simp [strayError, joins, errorOf] at hm

/-- It is also false for the well-behaved callee: client 3 answers, with an ERROR, the invocation client 2 is working on;
the dealer accepts that and rejects client 2's YIELD. -/
def rogueError : List Act :=
  [joins 1, joins 2, joins 3, .send 2 (.register ⟨.int 1, "p", []⟩), .route 2, .deliver 2,
   .send 1 (callP 1), .route 1, .deliver 2, .send 3 (errorOf 2), .route 3, .send 2 (yieldOf 2)]

theorem C68_fails_for_rogue_error : FreshRequests WAMPSession.plainCodec rpc rogueError ∧ DistinctSessions rogueError ∧
    ∃ k e, (run WAMPSession.plainCodec rogueError).conns 2 = some k ∧ k.up = [yieldOf 2] ∧
      Dealer.outcome (run WAMPSession.plainCodec rogueError).dealer (.receiveMessage 2 (yieldOf 2)) = .error e :=
  ⟨fresh_of_freshB _ _ _ (by decide), distinct_of_nodup (by decide), _, _, rfl, rfl, rfl⟩

/-- Session ids must not be reused: client 1 calls and leaves, another client is given id 1, and the answer to the old call
goes to it; its session rejects it. -/
def reusedSession : List Act :=
  [joins 1, joins 2, .send 2 (.register ⟨.int 1, "p", []⟩), .route 2, .deliver 2,
   .send 1 (callP 1), .route 1, .leave 1, joins 1, .deliver 2, .send 2 (yieldOf 2), .route 2]

theorem C68_needs_distinct_sessions : FreshRequests WAMPSession.plainCodec rpc reusedSession ∧
    ErrorsAnswer WAMPSession.plainCodec reusedSession ∧
    ∃ k m e, (run WAMPSession.plainCodec reusedSession).conns 1 = some k ∧ k.down = [m] ∧ isRpc m = true ∧
      WAMPSession.outcome WAMPSession.plainCodec k.calls (.receiveMessage m) = .error e :=
  ⟨fresh_of_freshB _ _ _ (by decide), errors_of_errorsB _ _ (by decide), _, _, _, rfl, rfl, rfl, rfl⟩

/-- Request ids must be fresh: two calls with the same id; the session rejects the second answer. -/
def reusedRequest : List Act :=
  [joins 1, .send 1 (callP 1), .send 1 (callP 1), .route 1, .route 1, .deliver 1]

theorem C68_needs_fresh_request_ids : DistinctSessions reusedRequest ∧
    ErrorsAnswer WAMPSession.plainCodec reusedRequest ∧
    ∃ k m e, (run WAMPSession.plainCodec reusedRequest).conns 1 = some k ∧ k.down = [m] ∧ isRpc m = true ∧
      WAMPSession.outcome WAMPSession.plainCodec k.calls (.receiveMessage m) = .error e :=
  ⟨distinct_of_nodup (by decide), errors_of_errorsB _ _ (by decide), _, _, _, rfl, rfl, rfl, rfl⟩

/-- Progressive calls must be left out, even if request ids are fresh: the callee answers client 1's progressive call with an
ERROR, client 1 calls again with the same request id, and the dealer, which has kept the id of the old invocation, uses
it again; it then rejects the callee's YIELD, and client 1 waits for ever. -/
def progressiveAgain : List Act :=
  [joins 1, joins 2, .send 2 (.register ⟨.int 1, "p", []⟩), .route 2, .deliver 2,
   .send 1 (.call { requestId := .int 1, procedure := "p", options_ := [(.str "progress", .bool true)] }), .route 1, .deliver 2,
   .send 2 (errorOf 2), .route 2, .deliver 1,
   .send 1 (.call { requestId := .int 1, procedure := "p", options_ := [(.str "progress", .bool true)] }), .route 1, .deliver 2,
   .send 2 (yieldOf 2)]

theorem C68_needs_plain_calls : FreshRequests WAMPSession.plainCodec rpc progressiveAgain ∧
    ErrorsAnswer WAMPSession.plainCodec progressiveAgain ∧ DistinctSessions progressiveAgain ∧
    (∃ k e, (run WAMPSession.plainCodec progressiveAgain).conns 2 = some k ∧ k.up = [yieldOf 2] ∧
      Dealer.outcome (run WAMPSession.plainCodec progressiveAgain).dealer (.receiveMessage 2 (yieldOf 2)) = .error e) ∧
    ∃ k, (run WAMPSession.plainCodec (progressiveAgain ++ [.route 2])).conns 1 = some k ∧ k.up = [] ∧ k.down = [] ∧
      Outstanding WAMPSession.plainCodec k.calls .call 1 :=
  ⟨fresh_of_freshB _ _ _ (by decide), errors_of_errorsB _ _ (by decide), distinct_of_nodup (by decide),
    ⟨_, _, rfl, rfl, rfl⟩, _, rfl, rfl, rfl, (WAMPSession.has_after _ _ _ _).1 (by decide)⟩

end Wamp.Spec.Net
