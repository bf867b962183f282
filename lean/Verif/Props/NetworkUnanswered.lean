import Verif.Proofs.NetUnanswered
import Verif.Props.NetworkWait

/-!
# Clients and router together: C119, why a request stays unanswered

The counterpart of C115 for requests other than CALL.  `LostRequest` is in `Spec/Wait.lean`.
-/

namespace Wamp.Spec.Net
open Wamp.Spec.Ses
variable {W : Type} (c : Codec W)

/-- A request other than CALL a connected client waits for is on its way, or its answer is, or it got lost in one of three ways.
Whatever the clients do. -/
theorem C119_underway_or_lost (sched : List Act) (hl : sched.length ≤ 2 ^ 53) (s : Int) (k : Conn W)
    (hk : (run c sched).conns s = some k) (kd : Kind) (hkd : kd ≠ .call) (r : Int) (h : Outstanding c k.calls kd r) :
    UnderWay k kd r ∨ LostRequest c sched s kd r :=
  underWay_or_lost c sched hl s k kd r hk hkd ((WAMPSession.has_after c _ _ _).2 h)

/-- And a request that is not under way is never answered: the client goes on waiting for as long as it stays and does not ask again
under the same request id. -/
theorem C119_for_ever (sched more : List Act) (hl : (sched ++ more).length ≤ 2 ^ 53) (s : Int) (k : Conn W)
    (hk : (run c sched).conns s = some k) (kd : Kind) (hkd : kd ≠ .call) (r : Int) (h : Outstanding c k.calls kd r)
    (hu : ¬ UnderWay k kd r) (hs : .leave s ∉ more) (hm : ∀ m, .send s m ∈ more → requestOf m ≠ some (kd, r)) :
    ∃ k', (run c (sched ++ more)).conns s = some k' ∧ Outstanding c k'.calls kd r ∧ ¬ UnderWay k' kd r := by
  have key : ∃ k', (run c (sched ++ more)).conns s = some k' ∧ (WAMPSession.after c k'.calls).has kd r ∧ ¬ UnderWay k' kd r := by
    induction more using snoc_induction with
    | nil => rw [List.append_nil]; exact ⟨k, hk, (WAMPSession.has_after c _ _ _).2 h, hu⟩
    | snoc more a ih =>
      rw [← List.append_assoc] at hl ⊢
      have h1 : (sched ++ more).length + 1 ≤ 2 ^ 53 := by rw [List.length_append] at hl; exact hl
      rw [run_snoc]
      refine unanswered_step c (base_run c _ (by omega)) (by omega) hkd
        (ih (by omega) (fun h => hs (List.mem_append_left _ h)) (fun m h => hm m (List.mem_append_left _ h))) a ?_ ?_
      · rintro rfl; exact hs (by simp)
      · rintro m rfl; exact hm m (by simp)
  obtain ⟨k', h1, h2, h3⟩ := key
  exact ⟨k', h1, (WAMPSession.has_after c _ _ _).1 h2, h3⟩

/-! The client of `strayUnsubscribe` waits and its request is not under way; it got lost at the router. -/

example : ∃ k, (run WAMPSession.plainCodec strayUnsubscribe).conns 1 = some k ∧
    Outstanding WAMPSession.plainCodec k.calls .unsubscribe 1 ∧ ¬ UnderWay k .unsubscribe 1 := by
  refine ⟨_, rfl, (WAMPSession.has_after _ _ _ _).1 (by decide), ?_⟩
  rintro (⟨m, hm, -⟩ | ⟨m, hm, -⟩) <;> cases hm

example : LostRequest WAMPSession.plainCodec strayUnsubscribe 1 .unsubscribe 1 :=
  ⟨[joins 1, .send 1 (.unsubscribe ⟨.int 1, .int 7⟩)], .route 1, [], _, rfl, by simp, rfl,
    .inr (.inl ⟨_, _, rfl, rfl, rfl, rfl, fun t ht => by cases ht⟩)⟩

/-- A codec that cannot write SUBSCRIBE. -/
def poorCodec : Codec Value := ⟨fun v => match v with | .list (.int 32 :: _) => .error (.valueError "no") | v => .ok v, .ok⟩

/-- Two requests of one client: one its serializer refuses, another that is under way. -/
def demoLost : List Act := [joins 1, .send 1 (.subscribe ⟨.int 1, "t", []⟩), .send 1 (.register ⟨.int 2, "p", []⟩), .route 1]

example : ∃ k, (run poorCodec demoLost).conns 1 = some k ∧ Outstanding poorCodec k.calls .subscribe 1 ∧
    Outstanding poorCodec k.calls .register 2 ∧ ¬ UnderWay k .subscribe 1 ∧ UnderWay k .register 2 := by
  refine ⟨_, rfl, (WAMPSession.has_after _ _ _ _).1 (by decide), (WAMPSession.has_after _ _ _ _).1 (by decide), ?_,
    .inr ⟨_, List.mem_singleton.2 rfl, rfl⟩⟩
  rintro (⟨m, hm, -⟩ | ⟨m, hm, e⟩)
  · cases hm
  · cases List.mem_singleton.1 hm; cases e

end Wamp.Spec.Net
