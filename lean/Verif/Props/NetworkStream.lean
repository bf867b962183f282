import Verif.Proofs.NetStream

/-!
# Clients and router together: C74

The system is the one of `Spec/Network.lean`; what a subscriber should see is told in the vocabulary of `Spec/Stream.lean`.
-/

namespace Wamp.Spec.Net
open Wamp.Spec.Ses
variable {W : Type} (c : Codec W)

/-- Exactly once, in order, nothing lost, nothing invented: the EVENTs a client has received since it joined, followed by
those on their way to it, are one for one the publications the router handled while the client was subscribed to their
topic, each with the id of that subscription and the arguments of the PUBLISH. -/
theorem C74_exactly_once_in_order (sched : List Act) (hl : sched.length ≤ 2 ^ 53) (q : Int) (k : Conn W)
    (hk : (run c sched).conns q = some k) :
    k.events.map (fun e => (e.subscriptionId.val, e.args, e.kwargs, e.details)) =
      (feed c q sched).map (fun f => (f.id, f.publish.args, f.publish.kwargs, [])) := (streams_run c sched hl).eq q k hk

/-- The publication ids a client sees increase strictly. -/
theorem C74_ids_increase (sched : List Act) (hl : sched.length ≤ 2 ^ 53) (q : Int) (k : Conn W)
    (hk : (run c sched).conns q = some k) : (k.events.map (·.publicationId.val)).Pairwise (· < ·) :=
  (streams_run c sched hl).inc q k hk

/-- The order of a publisher: what of a client's feed comes from publisher `s` is a subsequence of the PUBLISHes `s` sent,
in the order in which it sent them. -/
theorem C74_publisher_order (sched : List Act) (hl : sched.length ≤ 2 ^ 53) (q s : Int) :
    (((feed c q sched).filter (·.publisher = s)).map (·.publish)).Sublist (publishes s sched) :=
  (List.sublist_append_left _ _).trans (order_run c s q sched hl)

theorem split_last {α : Type} {l pre post : List α} {x y : α} (h : l ++ [x] = pre ++ y :: post) :
    (l = pre ∧ x = y) ∨ ∃ post', l = pre ++ y :: post' := by
  rcases List.eq_nil_or_concat post with rfl | ⟨p, z, rfl⟩
  · obtain ⟨h1, h2⟩ := List.append_inj' h rfl
    exact .inl ⟨h1, by simpa using h2⟩
  · have : l ++ [x] = (pre ++ y :: p) ++ [z] := by rw [h]; simp
    exact .inr ⟨p, (List.append_inj' this rfl).1⟩

/-- Every EVENT a client has received was accepted by its session, if the client uses fresh request ids. -/
theorem C74_accepted (sched : List Act) (hl : sched.length ≤ 2 ^ 53) (hf : FreshRequests c pubSub sched) (q : Int) (k : Conn W)
    (hk : (run c sched).conns q = some k) (pre post : List (WAMPSession.Op W)) (e : Event)
    (hc : k.calls = pre ++ .receiveMessage (.event e) :: post) :
    WAMPSession.outcome c pre (.receiveMessage (.event e)) = .ok (.msg (.event e)) := by
  induction sched using snoc_induction generalizing k pre post with
  | nil => cases hk
  | snoc sched a ih =>
    rw [List.length_append] at hl
    have hl' : sched.length + 1 ≤ 2 ^ 53 := hl
    have hf' := (fresh_snoc c hf).1
    have hs := stepCase c (base_run c sched (by omega)) (by omega) a
    rw [run_snoc] at hk
    generalize (run c sched).step c a = n' at hs hk
    have old : ∀ k0, (run c sched).conns q = some k0 → k.calls = k0.calls →
        WAMPSession.outcome c pre (.receiveMessage (.event e)) = .ok (.msg (.event e)) :=
      fun k0 h1 h2 => ih (by omega) hf' k0 h1 pre post (h2 ▸ hc)
    have push : ∀ {s : Int} {k0 : Conn W} {rest : List Message} {out : List (Int × Message)}, (run c sched).conns s = some k0 →
        ((if q = s then some { k0 with up := rest } else (run c sched).conns q).map
          fun k => (⟨k.calls, k.up, k.down ++ inbox out q⟩ : Conn W)) = some k →
        WAMPSession.outcome c pre (.receiveMessage (.event e)) = .ok (.msg (.event e)) := by
      intro s k0 rest out h1 h2
      simp only [Option.map_eq_some_iff] at h2
      obtain ⟨k1, h2, rfl⟩ := h2
      split at h2
      · rename_i e; subst e; cases h2; exact old k0 h1 rfl
      · exact old k1 h2 rfl
    cases hs with
    | idle => exact old k hk rfl
    | joinFail => exact old k hk rfl
    | leaveFail => exact old k hk rfl
    | join d =>
      simp only at hk; split at hk
      · cases hk; simp at hc
      · exact old k hk rfl
    | leave s =>
      simp only at hk; split at hk
      · cases hk
      · exact old k hk rfl
    | send s m k0 h1 =>
      simp only at hk; split at hk
      · rename_i e; subst e; cases hk
        rcases split_last hc with ⟨-, h⟩ | ⟨post', h⟩
        · cases h
        · exact ih (by omega) hf' k0 h1 pre post' h
      · exact old k hk rfl
    | deliver s m k0 rest h1 h2 =>
      simp only at hk; split at hk
      · rename_i e; subst e; cases hk
        rcases split_last hc with ⟨rfl, h⟩ | ⟨post', h⟩
        · cases h
          exact C67_client_never_rejects c sched (by omega) hf' q k0 h1 _ rest h2 rfl
        · exact ih (by omega) hf' k0 h1 pre post' h
      · exact old k hk rfl
    | routeX s m k0 rest h1 =>
      simp only at hk; split at hk
      · rename_i e; subst e; cases hk; exact old k0 h1 rfl
      · exact old k hk rfl
    | routeB s m k0 rest op h1 => exact push h1 hk
    | routeD s m k0 rest op h1 => exact push h1 hk

/-- Client 1 subscribes to `a`; client 2 publishes 5 to `a`, 6 to `b` and 7 to `a`, client 1 then publishes 8 to `a`, and all
of this is handled; client 1 has received the first event. -/
def demoStream : List Act :=
  [joins 1, joins 2, .send 1 (.subscribe ⟨.int 1, "a", []⟩), .route 1, .deliver 1,
   .send 2 (.publish ⟨.int 1, "a", some [.int 5], none, []⟩), .send 2 (.publish ⟨.int 2, "b", some [.int 6], none, []⟩),
   .send 2 (.publish ⟨.int 3, "a", some [.int 7], none, []⟩), .route 2, .deliver 1, .route 2, .route 2,
   .send 1 (.publish ⟨.int 2, "a", some [.int 8], none, []⟩), .route 1]

theorem demoStream_fresh : FreshRequests WAMPSession.plainCodec pubSub demoStream := fresh_of_freshB _ _ _ (by decide)

example : (feed WAMPSession.plainCodec 1 demoStream).map (fun f => (f.publisher, f.id, f.publish.args)) =
    [(2, 1, some [.int 5]), (2, 1, some [.int 7]), (1, 1, some [.int 8])] := by decide

example : ∃ k, (run WAMPSession.plainCodec demoStream).conns 1 = some k ∧ k.received.map (·.args) = [some [.int 5]] ∧
    k.events.map (·.args) = [some [.int 5], some [.int 7], some [.int 8]] ∧
    k.events.map (·.publicationId.val) = [2, 4, 5] := by
  refine ⟨_, rfl, ?_, ?_, ?_⟩ <;> decide

end Wamp.Spec.Net
