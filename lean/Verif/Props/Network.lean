import Verif.Proofs.NetPub
import Verif.Props.Session

/-!
# Clients and router together: C67

The system is the one of `Spec/Network.lean`: any number of clients, one router with a broker and a dealer, FIFO channels,
every schedule.  `run c sched` is the system after the schedule, with an arbitrary codec `c`.
-/

namespace Wamp.Spec.Net
open Wamp.Spec.Ses
variable {W : Type} (c : Codec W)

/-! ## A worked schedule used by the examples -/

/-- A client joins. -/
def joins (s : Int) : Act := .join ⟨.int s, "realm1", none, none⟩

/-- Clients 1 and 2; 1 subscribes to `a` and gets the answer; 2 publishes to `a` with acknowledgement; 1 asks to
unsubscribe before it has seen the event. -/
def demo : List Act :=
  [joins 1, joins 2, .send 1 (.subscribe ⟨.int 1, "a", []⟩), .route 1, .deliver 1,
   .send 2 (.publish ⟨.int 1, "a", some [.int 5], none, [(.str "acknowledge", .bool true)]⟩), .route 2,
   .send 1 (.unsubscribe ⟨.int 2, .int 1⟩)]

/-- Decides `FreshRequests` for a concrete schedule. -/
def freshB (K : Kind → Bool) : Net W → List Act → Bool
  | _, [] => true
  | n, a :: l =>
    (match a with
     | .send s m =>
       (match n.conns s with
        | none => true
        | some k => (match requestOf m with
          | none => true
          | some (kd, i) => !K kd || !decide ((WAMPSession.after c k.calls).has kd i)))
     | _ => true) && freshB K (n.step c a) l

theorem fresh_of_freshB (K : Kind → Bool) (sched : List Act) (h : freshB c K {} sched = true) : FreshRequests c K sched := by
  suffices H : ∀ (l pre : List Act), freshB c K (run c pre) l = true → ∀ mid s m post, l = mid ++ .send s m :: post →
      ∀ kc, (run c (pre ++ mid)).conns s = some kc → ∀ k i, requestOf m = some (k, i) → K k = true →
        ¬ Outstanding c kc.calls k i by
    intro pre s m post e; exact H sched [] h pre s m post e
  intro l
  induction l with
  | nil => intro pre _ mid s m post e; simp at e
  | cons a l ih =>
    intro pre hb mid s m post e kc hk k i hr hK
    simp only [freshB, Bool.and_eq_true] at hb
    obtain ⟨h1, h2⟩ := hb
    cases mid with
    | nil =>
      simp only [List.nil_append, List.cons.injEq] at e
      rw [List.append_nil] at hk
      rw [e.1] at h1
      simp only [hk, hr, hK, Bool.not_true, Bool.false_or, Bool.not_eq_true', decide_eq_false_iff_not] at h1
      rw [← WAMPSession.has_after]; exact h1
    | cons b mid =>
      simp only [List.cons_append, List.cons.injEq] at e
      obtain ⟨rfl, e⟩ := e
      have := ih (pre ++ [a]) (by rw [run_snoc]; exact h2) mid s m post e kc (by simpa using hk) k i hr hK
      exact this

theorem demo_fresh : FreshRequests WAMPSession.plainCodec pubSub demo := fresh_of_freshB _ _ _ (by decide)

/-! ## C67 -/

/-- What the broker sends is SUBSCRIBED, UNSUBSCRIBED, EVENT or PUBLISHED, and the dealer sends none of these. -/
theorem C67_who_sends_what :
    (∀ ops op, ∀ x ∈ brokerOut (Broker.outcome ops op), isPub x.2 = true) ∧
    (∀ ops op, ∀ x ∈ dealerOut (Dealer.outcome ops op), isRpc x.2 = true) ∧ ∀ m, isRpc m = true → isPub m = false := by
  refine ⟨brokerOut_isPub, dealerOut_isRpc, ?_⟩
  intro m h; cases m <;> first | rfl | cases h

/-- No client ever rejects a message the broker sent it: whenever such a message is next in a client's channel, the
client's session accepts it. -/
theorem C67_client_never_rejects (sched : List Act) (hl : sched.length ≤ 2 ^ 53) (hf : FreshRequests c pubSub sched) (s : Int)
    (k : Conn W) (hk : (run c sched).conns s = some k) (m : Message) (rest : List Message) (hd : k.down = m :: rest)
    (hm : isPub m = true) : WAMPSession.outcome c k.calls (.receiveMessage m) = .ok (.msg m) := by
  have h := ((pub_run c sched hl hf s k hk).deliver hd).1 hm
  rw [WAMPSession.outcome_incoming c (m := m) rfl, h]; rfl

/-- The broker never rejects an UNSUBSCRIBE for a subscription the client has been granted and had not asked to end: client
`s` sends it after the schedule `pre`, when `k.up` was waiting in its channel; `mid` is anything that lets the router
handle just those messages while `s` stays; then the UNSUBSCRIBE is next and the broker answers UNSUBSCRIBED. -/
theorem C67_unsubscribe_accepted (pre mid : List Act) (s : Int) (u : Unsubscribe)
    (hl : (pre ++ .send s (.unsubscribe u) :: mid).length ≤ 2 ^ 53) (hf : FreshRequests c pubSub pre) (k : Conn W)
    (hk : (run c pre).conns s = some k) (hmay : MayUnsubscribe c k u.subscriptionId.val)
    (hsent : returned (WAMPSession.outcome c k.calls (.sendMessage (.unsubscribe u))) = true)
    (hleave : .leave s ∉ mid) (hroute : routes s mid = k.up.length) :
    let n := run c (pre ++ .send s (.unsubscribe u) :: mid)
    (∃ k' rest, n.conns s = some k' ∧ k'.up = .unsubscribe u :: rest) ∧
    Broker.outcome n.broker (.receiveMessage s (.unsubscribe u)) = .ok (.reply ⟨.unsubscribed ⟨u.requestId⟩, s⟩) := by
  have hlen : pre.length + (mid.length + 1) ≤ 2 ^ 53 := by simpa using hl
  have hp := pub_run c pre (by omega) hf s k hk
  -- the subscription is held, and nothing in the channel ends it
  have hheld : HeldB (run c pre).broker s u.subscriptionId.val := by
    refine hp.rep.keeps ((WAMPSession.grants_after c k.calls _ _).2 hmay.1) ?_
    intro r _ hn
    exact hmay.2 r ((WAMPSession.names_after c k.calls _ _ _).1 hn)
  have hnone : ∀ v, .unsubscribe v ∈ k.up → v.subscriptionId.val ≠ u.subscriptionId.val := by
    intro v hv e
    have := hp.req.unsub rfl v hv
    rw [e] at this
    exact hmay.2 _ ((WAMPSession.names_after c k.calls _ _ _).1 this)
  have main : ∀ mid : List Act, pre.length + (mid.length + 1) ≤ 2 ^ 53 → .leave s ∉ mid → routes s mid ≤ k.up.length →
      ∃ k' pre' extra', (run c (pre ++ .send s (.unsubscribe u) :: mid)).conns s = some k' ∧
        k'.up = pre' ++ .unsubscribe u :: extra' ∧ pre'.length + routes s mid = k.up.length ∧
        (∀ v, .unsubscribe v ∈ pre' → v.subscriptionId.val ≠ u.subscriptionId.val) ∧
        HeldB (run c (pre ++ .send s (.unsubscribe u) :: mid)).broker s u.subscriptionId.val := by
    intro mid
    induction mid using snoc_induction with
    | nil =>
      intro _ _ _
      rw [run_snoc, step_send c hk]
      refine ⟨_, k.up, [], if_pos rfl, ?_, rfl, hnone, hheld⟩
      simp only [hsent, if_true]
    | snoc mid a ih =>
      intro hlen hleave hroute
      rw [List.length_append] at hlen
      have hlen' : pre.length + (mid.length + 1 + 1) ≤ 2 ^ 53 := hlen
      rw [routes_snoc] at hroute
      obtain ⟨k', pre', extra', h1, h2, h3, h4, h5⟩ := ih (by omega) (fun h => hleave (List.mem_append_left _ h)) (by omega)
      have hb := base_run c (pre ++ .send s (.unsubscribe u) :: mid) (by simp; omega)
      obtain ⟨k'', pre'', extra'', g1, g2, g3, g4, g5⟩ := carried c hb (a := a) (by simp; omega) h1 h2 h4 h5
        (by rintro rfl; exact hleave (by simp)) (by omega)
      have e : pre ++ Act.send s (.unsubscribe u) :: (mid ++ [a]) = (pre ++ .send s (.unsubscribe u) :: mid) ++ [a] := by simp
      rw [e, run_snoc]
      exact ⟨k'', pre'', extra'', g1, g2, by rw [routes_snoc]; omega, g4, g5⟩
  obtain ⟨k', pre', extra', h1, h2, h3, -, t, h5⟩ := main mid hlen hleave (by omega)
  have : pre' = [] := List.length_eq_zero_iff.1 (by omega)
  subst this
  refine ⟨⟨k', extra', h1, h2⟩, ?_⟩
  have hb := base_run c (pre ++ .send s (.unsubscribe u) :: mid) hl
  have hbl := hb.bl
  exact (Broker.C24_unsubscribe_held _ (Broker.C19_no_clash _ (by simp at hbl; omega)) s t u h5).1

/-- When nothing is on its way to a client, the subscriptions it has been granted are exactly those it holds at the
broker. -/
theorem C67_agreement (sched : List Act) (hl : sched.length ≤ 2 ^ 53) (hf : FreshRequests c pubSub sched) (s : Int)
    (k : Conn W) (hk : (run c sched).conns s = some k) (hd : k.down = []) (i : Int) :
    Granted c (WAMPSession.trace c k.calls) .subscribe i ↔
      ∃ t, (⟨s, t, i⟩ : Pub.Holding) ∈ (Pub.view (Broker.trace (run c sched).broker)).held := by
  have h := (pub_run c sched hl hf s k hk).rep
  rw [hd] at h
  rw [← WAMPSession.grants_after]; exact h i

/-- The hypotheses are met in the example schedule: client 1 has an EVENT waiting for a subscription it has already asked
to end; it accepts it. -/
example : ∃ k ev, (run WAMPSession.plainCodec demo).conns 1 = some k ∧ k.down = [.event ev] ∧
    k.up = [.unsubscribe ⟨.int 2, .int 1⟩] ∧ isPub (.event ev) = true := ⟨_, _, rfl, rfl, rfl, rfl⟩

/-- Before that UNSUBSCRIBE, subscription 1 was granted and not being withdrawn. -/
example : ∃ k, (run WAMPSession.plainCodec (demo.take 7)).conns 1 = some k ∧ MayUnsubscribe WAMPSession.plainCodec k 1 ∧
    k.up.length = 0 := by
  refine ⟨_, rfl, ⟨(WAMPSession.grants_after _ _ _ _).1 (by decide), ?_⟩, rfl⟩
  intro r h
  have := (WAMPSession.names_after _ _ _ _ _).2 h
  cases this

/-- Reusing the id of an outstanding request breaks the agreement: both SUBSCRIBEs are answered with SUBSCRIBED, and the
session rejects the second answer. -/
def clash : List Act :=
  [joins 1, .send 1 (.subscribe ⟨.int 1, "a", []⟩), .send 1 (.subscribe ⟨.int 1, "b", []⟩), .route 1, .route 1, .deliver 1]

theorem C67_needs_fresh_request_ids : ∃ k m rest e, (run WAMPSession.plainCodec clash).conns 1 = some k ∧ k.down = m :: rest ∧
    isPub m = true ∧ WAMPSession.outcome WAMPSession.plainCodec k.calls (.receiveMessage m) = .error e :=
  ⟨_, _, _, _, rfl, rfl, rfl, rfl⟩

end Wamp.Spec.Net
