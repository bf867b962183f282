import Verif.Proofs.NetWait
import Verif.Props.NetworkStory

/-!
# Clients and router together: C75, requests other than CALL

The system is the one of `Spec/Network.lean`; what "under way" and "polite" mean is in `Spec/Wait.lean`.
C75 as stated is false of the code (`C75_fails_unsubscribe_not_held`, `C75_fails_unregister_not_held`): the router raises
an exception at an UNSUBSCRIBE or UNREGISTER of something the client does not hold, and sends no answer.
-/

namespace Wamp.Spec.Net
open Wamp.Spec.Ses
variable {W : Type} (c : Codec W)

/-- A SUBSCRIBE, an acknowledged PUBLISH or a REGISTER a connected client is waiting for is on its way to the router, or
its answer is on its way back.  Whatever the clients do, including leaving and using request ids twice. -/
theorem C75_requests_partial (sched : List Act) (hl : sched.length ≤ 2 ^ 53) (hs : Serializes c sched) (s : Int) (k : Conn W)
    (hk : (run c sched).conns s = some k) (kd : Kind) (hkd : kd = .subscribe ∨ kd = .publish ∨ kd = .register) (r : Int)
    (h : Outstanding c k.calls kd r) : UnderWay k kd r :=
  underWay_iff (wait_plain_run c sched hl hs s k kd r hk (by rcases hkd with rfl | rfl | rfl <;> rfl)
    ((WAMPSession.has_after c _ _ _).2 h))

/-- The same for an UNSUBSCRIBE, when clients ask to end only what they have been granted and have not yet asked to end,
and do not use the id of a request that is still waiting. -/
theorem C75_unsubscribe_partial (sched : List Act) (hl : sched.length ≤ 2 ^ 53) (hs : Serializes c sched)
    (hf : FreshRequests c pubSub sched) (hp : PoliteUnsubscribes c sched) (s : Int) (k : Conn W)
    (hk : (run c sched).conns s = some k) (r : Int) (h : Outstanding c k.calls .unsubscribe r) : UnderWay k .unsubscribe r :=
  underWay_iff (wait_unsub_run c sched hl hs hf hp s k _ r hk rfl ((WAMPSession.has_after c _ _ _).2 h))

/-- The same for an UNREGISTER. -/
theorem C75_unregister_partial (sched : List Act) (hl : sched.length ≤ 2 ^ 53) (hs : Serializes c sched)
    (hg : GoodClients c sched) (hp : PoliteUnregisters c sched) (s : Int) (k : Conn W)
    (hk : (run c sched).conns s = some k) (r : Int) (h : Outstanding c k.calls .unregister r) : UnderWay k .unregister r :=
  underWay_iff (wait_unreg_run c sched hl hs hg hp s k _ r hk rfl ((WAMPSession.has_after c _ _ _).2 h))

/-- So a polite client whose channels are empty waits for none of these. -/
theorem C75_nothing_waits_partial (sched : List Act) (hl : sched.length ≤ 2 ^ 53) (hs : Serializes c sched)
    (hf : FreshRequests c pubSub sched) (hp : PoliteUnsubscribes c sched) (hg : GoodClients c sched)
    (hp' : PoliteUnregisters c sched) (s : Int) (k : Conn W) (hk : (run c sched).conns s = some k) (hu : k.up = [])
    (hd : k.down = []) (kd : Kind) (hkd : kd ≠ .call) (r : Int) : ¬ Outstanding c k.calls kd r := by
  intro h
  have : UnderWay k kd r := by
    cases kd with
    | call => exact absurd rfl hkd
    | subscribe => exact C75_requests_partial c sched hl hs s k hk _ (by simp) r h
    | publish => exact C75_requests_partial c sched hl hs s k hk _ (by simp) r h
    | register => exact C75_requests_partial c sched hl hs s k hk _ (by simp) r h
    | unsubscribe => exact C75_unsubscribe_partial c sched hl hs hf hp s k hk r h
    | unregister => exact C75_unregister_partial c sched hl hs hg hp' s k hk r h
  rcases this with ⟨m, hm, -⟩ | ⟨m, hm, -⟩
  · rw [hu] at hm; cases hm
  · rw [hd] at hm; cases hm

/-! ## A concrete case -/

/-- Client 1 subscribes and registers, gets both answers, and asks to end both; the router has handled the first. -/
def demoWait : List Act :=
  [joins 1, .send 1 (.subscribe ⟨.int 1, "t", []⟩), .send 1 (.register ⟨.int 2, "p", []⟩), .route 1, .route 1, .deliver 1,
    .deliver 1, .send 1 (.unsubscribe ⟨.int 3, .int 1⟩), .send 1 (.unregister ⟨.int 4, .int 1⟩), .route 1]

/-- Decides both kinds of politeness for a concrete schedule. -/
def politeB : Net W → List Act → Bool
  | _, [] => true
  | n, a :: l =>
    (match a with
     | .send s (.unsubscribe u) =>
       (match n.conns s with
        | none => true
        | some k => decide ((WAMPSession.after c k.calls).grants .subscribe u.subscriptionId.val) &&
            (WAMPSession.after c k.calls).unsubscribeRequests.items.all fun p => p.2 != u.subscriptionId.val)
     | .send s (.unregister u) =>
       (match n.conns s with
        | none => true
        | some k => decide ((WAMPSession.after c k.calls).grants .register u.registrationId.val) &&
            (WAMPSession.after c k.calls).unregisterRequests.items.all fun p => p.2 != u.registrationId.val)
     | _ => true) && politeB (n.step c a) l

theorem politeB_split (l : List Act) : ∀ (n : Net W) (mid post : List Act) (a : Act), l = mid ++ a :: post →
    politeB c n l = true → politeB c (mid.foldl (Net.step c) n) (a :: post) = true := by
  induction l with
  | nil => intro n mid post a e; simp at e
  | cons b l ih =>
    intro n mid post a e h
    cases mid with
    | nil => rw [List.nil_append] at e; rw [← e]; exact h
    | cons b' mid =>
      simp only [List.cons_append, List.cons.injEq] at e
      obtain ⟨rfl, e⟩ := e
      simp only [politeB, Bool.and_eq_true] at h
      exact ih _ mid post a e h.2

theorem polite_of_politeB (sched : List Act) (h : politeB c {} sched = true) :
    PoliteUnsubscribes c sched ∧ PoliteUnregisters c sched := by
  constructor
  · intro pre s u post e k hk
    have := politeB_split c sched {} pre post _ e h
    change politeB c (run c pre) _ = true at this
    simp only [politeB, hk, Bool.and_eq_true, decide_eq_true_eq] at this
    refine ⟨(WAMPSession.grants_after c _ _ _).1 this.1.1, fun r hr => ?_⟩
    have hn : (WAMPSession.after c k.calls).unsubscribeRequests.get r = some u.subscriptionId.val :=
      (WAMPSession.names_after c _ _ _ _).2 hr
    have := List.all_eq_true.1 this.1.2 _ (Dict.mem_of_lookupL hn)
    simp at this
  · intro pre s u post e k hk
    have := politeB_split c sched {} pre post _ e h
    change politeB c (run c pre) _ = true at this
    simp only [politeB, hk, Bool.and_eq_true, decide_eq_true_eq] at this
    refine ⟨(WAMPSession.grants_after c _ _ _).1 this.1.1, fun r hr => ?_⟩
    have hn : (WAMPSession.after c k.calls).unregisterRequests.get r = some u.registrationId.val :=
      (WAMPSession.names_after c _ _ _ _).2 hr
    have := List.all_eq_true.1 this.1.2 _ (Dict.mem_of_lookupL hn)
    simp at this

theorem demoWait_good : GoodClients WAMPSession.plainCodec demoWait := by
  refine ⟨fresh_of_freshB _ _ _ (by decide), ?_, errors_of_errorsB _ _ (by decide), distinct_of_nodup (by decide)⟩
  intro s m hm; simp [demoWait, joins] at hm

/-- The hypotheses hold, both requests are outstanding; the answer to the first is on its way back, the second still on its
way to the router. -/
example : Serializes WAMPSession.plainCodec demoWait ∧ FreshRequests WAMPSession.plainCodec pubSub demoWait ∧
    PoliteUnsubscribes WAMPSession.plainCodec demoWait ∧ PoliteUnregisters WAMPSession.plainCodec demoWait ∧
    ∃ k, (run WAMPSession.plainCodec demoWait).conns 1 = some k ∧
      Outstanding WAMPSession.plainCodec k.calls .unsubscribe 3 ∧ Outstanding WAMPSession.plainCodec k.calls .unregister 4 ∧
      k.up = [.unregister ⟨.int 4, .int 1⟩] ∧ k.down = [.unsubscribed ⟨.int 3⟩] :=
  ⟨serializes_plain _, fresh_of_freshB _ _ _ (by decide), (polite_of_politeB _ _ (by decide)).1,
    (polite_of_politeB _ _ (by decide)).2, _, rfl, (WAMPSession.has_after _ _ _ _).1 (by decide),
    (WAMPSession.has_after _ _ _ _).1 (by decide), rfl, rfl⟩

/-- A SUBSCRIBE, an acknowledged PUBLISH and a refused REGISTER in the middle of things. -/
def demoWait2 : List Act :=
  [joins 1, joins 2, .send 2 (.register ⟨.int 1, "p", []⟩), .route 2, .send 1 (.subscribe ⟨.int 1, "t", []⟩),
    .send 1 (.register ⟨.int 1, "p", []⟩), .send 1 (.publish ⟨.int 1, "t", none, none, [(.str "acknowledge", .bool true)]⟩),
    .route 1, .deliver 1, .route 1]

example : ∃ k e, (run WAMPSession.plainCodec demoWait2).conns 1 = some k ∧
    ¬ Outstanding WAMPSession.plainCodec k.calls .subscribe 1 ∧ Outstanding WAMPSession.plainCodec k.calls .register 1 ∧
    Outstanding WAMPSession.plainCodec k.calls .publish 1 ∧ k.up.length = 1 ∧ k.down = [.error e] :=
  ⟨_, _, rfl, fun h => absurd ((WAMPSession.has_after _ _ _ _).2 h) (by decide), (WAMPSession.has_after _ _ _ _).1 (by decide),
    (WAMPSession.has_after _ _ _ _).1 (by decide), rfl, rfl⟩

/-! ## Where the code falls short -/

/-- A client asks to end a subscription it does not hold. -/
def strayUnsubscribe : List Act := [joins 1, .send 1 (.unsubscribe ⟨.int 1, .int 7⟩), .route 1]

/-- C75 is false of the code without politeness: the broker raises an exception, nobody is told, and the client waits with
both channels empty. -/
theorem C75_fails_unsubscribe_not_held : Serializes WAMPSession.plainCodec strayUnsubscribe ∧
    FreshRequests WAMPSession.plainCodec pubSub strayUnsubscribe ∧
    ∃ k, (run WAMPSession.plainCodec strayUnsubscribe).conns 1 = some k ∧ k.up = [] ∧ k.down = [] ∧
      Outstanding WAMPSession.plainCodec k.calls .unsubscribe 1 :=
  ⟨serializes_plain _, fresh_of_freshB _ _ _ (by decide), _, rfl, rfl, rfl, (WAMPSession.has_after _ _ _ _).1 (by decide)⟩

/-- A client asks to end a registration it does not hold. -/
def strayUnregister : List Act := [joins 1, .send 1 (.unregister ⟨.int 1, .int 7⟩), .route 1]

theorem C75_fails_unregister_not_held : Serializes WAMPSession.plainCodec strayUnregister ∧
    GoodClients WAMPSession.plainCodec strayUnregister ∧
    ∃ k, (run WAMPSession.plainCodec strayUnregister).conns 1 = some k ∧ k.up = [] ∧ k.down = [] ∧
      Outstanding WAMPSession.plainCodec k.calls .unregister 1 := by
  refine ⟨serializes_plain _,
    ⟨fresh_of_freshB _ _ _ (by decide), ?_, errors_of_errorsB _ _ (by decide), distinct_of_nodup (by decide)⟩,
    _, rfl, rfl, rfl, (WAMPSession.has_after _ _ _ _).1 (by decide)⟩
  intro s m hm; simp [strayUnregister, joins] at hm

end Wamp.Spec.Net
