import Verif.Spec.Effects
import Verif.Props.Dealer

/-!
# C30, C35, C41, C42: what a call changes for later calls

`target ops q m` is who would be sent an INVOCATION for the CALL `m` of session `q` after the history `ops`, and under which
registration id.
-/

namespace Wamp.Dealer
open Spec Spec.Rpc

theorem target_held {ops : List Op} (hd : (view (trace ops)).drawn < 2 ^ 53) (q : Int) {m : Call} {x : Reg}
    (hx : x ∈ (view (trace ops)).held) (hp : x.procedure = m.procedure) : target ops q m = some (x.session, x.id) := by
  obtain ⟨⟨inv, h1, h2, -⟩, -⟩ := C31_call_routed ops hd q m x hx hp
  unfold target
  rw [h1]; simp only [h2, PyInt.val]

theorem target_free {ops : List Op} (hd : (view (trace ops)).drawn < 2 ^ 53) (q : Int) {m : Call}
    (hf : ∀ x ∈ (view (trace ops)).held, x.procedure ≠ m.procedure) : target ops q m = none := by
  obtain ⟨⟨e, h1, -⟩, -⟩ := C31_call_no_such_procedure ops hd q m hf
  unfold target
  rw [h1]

/-- The same procedures held by the same sessions: the same targets. -/
theorem target_congr {ops ops' : List Op} (hd : (view (trace ops)).drawn < 2 ^ 53) (hd' : (view (trace ops')).drawn < 2 ^ 53)
    (q : Int) (m : Call) (h : ∀ x : Reg, x.procedure = m.procedure → (x ∈ (view (trace ops')).held ↔ x ∈ (view (trace ops)).held)) :
    target ops' q m = target ops q m := by
  by_cases hx : ∃ x ∈ (view (trace ops)).held, x.procedure = m.procedure
  · obtain ⟨x, h1, h2⟩ := hx
    rw [target_held hd q h1 h2, target_held hd' q ((h x h2).2 h1) h2]
  · rw [target_free hd q (fun x h1 h2 => hx ⟨x, h1, h2⟩), target_free hd' q (fun x h1 h2 => hx ⟨x, (h x h2).1 h1, h2⟩)]

/-- After REGISTERED, CALLs of the procedure go to the session, under the id of the reply; other CALLs go where they went. -/
theorem C30_routing (ops : List Op) (s : Int) (m : Register)
    (hd : (view (trace (ops ++ [.receiveMessage s (.register m)]))).drawn < 2 ^ 53)
    (hs : s ∈ (view (trace ops)).known) (hf : ∀ x ∈ (view (trace ops)).held, x.procedure ≠ m.procedure) :
    ∃ i, outcome ops (.receiveMessage s (.register m)) = .ok (.reply ⟨.registered ⟨m.requestId, .int i⟩, s⟩) ∧
      ∀ q c, target (ops ++ [.receiveMessage s (.register m)]) q c =
        if c.procedure = m.procedure then some (s, i) else target ops q c := by
  have hd0 : (view (trace ops)).drawn < 2 ^ 53 := by
    rw [trace_snoc, view_snoc] at hd
    exact Nat.lt_of_le_of_lt (drawn_next_le _ _) hd
  obtain ⟨i, h1, -, -, h4, -⟩ := C30_register_free ops hd0 s m hs hf
  refine ⟨i, h1, fun q c => ?_⟩
  split
  · rename_i e
    exact target_held hd q (x := ⟨s, m.procedure, i⟩) (by rw [h4]; exact List.mem_append_right _ List.mem_cons_self) e.symm
  · rename_i e
    refine target_congr hd0 hd q c (fun x hx => ?_)
    rw [h4, List.mem_append, List.mem_singleton]
    refine ⟨fun h => h.resolve_right (fun h' => e ?_), .inl⟩
    rw [← hx, h']

/-- A refused REGISTER changes no routing. -/
theorem C30_routing_refused (ops : List Op) (hd : (view (trace ops)).drawn < 2 ^ 53) (s : Int) (m : Register)
    (x : Reg) (hx : x ∈ (view (trace ops)).held) (hp : x.procedure = m.procedure) (q : Int) (c : Call) :
    target (ops ++ [.receiveMessage s (.register m)]) q c = target ops q c := by
  have h : after (ops ++ [.receiveMessage s (.register m)]) = after ops := by
    by_cases hs : s ∈ (view (trace ops)).known
    · exact (C30_register_taken ops hd s m hs x hx hp).2
    · exact (C30_register_unknown ops hd s m hs).2
  unfold target outcome
  rw [h]

/-- After UNREGISTERED, CALLs of the procedure go nowhere; other CALLs go where they went. -/
theorem C41_routing (ops : List Op) (hd : (view (trace ops)).drawn < 2 ^ 53) (x : Reg) (hx : x ∈ (view (trace ops)).held)
    (m : Unregister) (hm : m.registrationId.val = x.id) (q : Int) (c : Call) :
    target (ops ++ [.receiveMessage x.session (.unregister m)]) q c = if c.procedure = x.procedure then none else target ops q c := by
  obtain ⟨h1, h2, -⟩ := C41_unregister_held ops hd x hx m hm
  have hd' : (view (trace (ops ++ [.receiveMessage x.session (.unregister m)]))).drawn < 2 ^ 53 := by
    have h1' : ((after ops).step (.receiveMessage x.session (.unregister m))).2 = _ := h1
    rw [trace_snoc, view_snoc, h1']; exact hd
  split
  · rename_i e
    refine target_free hd' q (fun y hy hp => ?_)
    obtain ⟨g1, g2⟩ := (h2 y).1 hy
    exact g2 (C30_exclusive ops hd y x g1 hx (.inl (hp.trans e)))
  · rename_i e
    refine target_congr hd hd' q c (fun y hy => ?_)
    rw [h2]
    exact ⟨fun h => h.1, fun h => ⟨h, fun e' => e (by rw [← hy, e'])⟩⟩

/-- After a session has left, the CALLs that went to it go nowhere; the others go where they went. -/
theorem C42_routing (ops : List Op) (hd : (view (trace ops)).drawn < 2 ^ 53) (s : Int) (hs : s ∈ (view (trace ops)).known)
    (q : Int) (c : Call) :
    target (ops ++ [.removeSession s]) q c = (target ops q c).filter (fun t => decide (t.1 ≠ s)) := by
  obtain ⟨h1, -, h2⟩ := C42_remove_known ops hd s hs
  have hd' : (view (trace (ops ++ [.removeSession s]))).drawn < 2 ^ 53 := by
    have h1' : ((after ops).step (.removeSession s)).2 = _ := h1
    rw [trace_snoc, view_snoc, h1']; exact hd
  by_cases hx : ∃ x ∈ (view (trace ops)).held, x.procedure = c.procedure
  · obtain ⟨x, g1, g2⟩ := hx
    rw [target_held hd q g1 g2]
    by_cases e : x.session = s
    · rw [target_free hd' q (fun y hy hp => ?_)]
      · simp [Option.filter, e]
      · obtain ⟨k1, k2⟩ := (h2 y).1 hy
        have := C30_exclusive ops hd y x k1 g1 (.inl (hp.trans g2.symm))
        exact k2 (this ▸ e)
    · rw [target_held hd' q ((h2 x).2 ⟨g1, e⟩) g2]
      simp [Option.filter, e]
  · rw [target_free hd q (fun x h1 h2 => hx ⟨x, h1, h2⟩), target_free hd' q (fun x k1 k2 => hx ⟨x, ((h2 x).1 k1).1, k2⟩)]
    rfl

/-- After an ERROR has ended a call, every further answer to its invocation is refused. -/
theorem C35_call_ended (ops : List Op) (hd : (view (trace ops)).drawn < 2 ^ 53) (s : Int) (m : ErrorMsg) (x : Pending)
    (hx : x ∈ (view (trace ops)).pending) (hm : m.messageType.val = 68) (hi : m.requestId.val = x.inv) (s' : Int) :
    (∀ y, y.requestId.val = x.inv → ∃ msg,
      outcome (ops ++ [.receiveMessage s (.error m)]) (.receiveMessage s' (.yield_ y)) = .error (.valueError msg)) ∧
    (∀ e, e.requestId.val = x.inv → ∃ msg,
      outcome (ops ++ [.receiveMessage s (.error m)]) (.receiveMessage s' (.error e)) = .error (.valueError msg)) := by
  obtain ⟨h1, h2⟩ := C35_error_routed ops hd s m x hx hm hi
  have hd' : (view (trace (ops ++ [.receiveMessage s (.error m)]))).drawn < 2 ^ 53 := by
    have h1' : ((after ops).step (.receiveMessage s (.error m))).2 = _ := h1
    rw [trace_snoc, view_snoc, h1']; exact hd
  have none : ∀ z ∈ (view (trace (ops ++ [.receiveMessage s (.error m)]))).pending, z.inv ≠ x.inv := by
    intro z hz e
    obtain ⟨k1, k2⟩ := (h2 z).1 hz
    have hc := (rel_after ops hd).2
    exact k2 (hc.inj z (hc.sub z k1) x (hc.sub x hx) e)
  exact ⟨fun y hy => (C33_yield_authorisation _ hd' s' y (fun z hz e => absurd (e.trans hy) (none z hz))).1,
    fun e he => (C35_error_rejected _ hd' s' e (.inr fun z hz e' => none z hz (e'.trans he))).1⟩

/-- In the worked history CALLs of "p" go to 2 under id 1; after it unregisters, or leaves, they go nowhere; CALLs of "z"
still go to 3. -/
example : target demo 1 ⟨.int 9, "p", none, none, [], none, none, false⟩ = some (2, 1) ∧
    target (demo ++ [.receiveMessage 2 (.unregister ⟨.int 5, .int 1⟩)]) 1 ⟨.int 9, "p", none, none, [], none, none, false⟩ = none ∧
    target (demo ++ [.removeSession 2]) 1 ⟨.int 9, "q", none, none, [], none, none, false⟩ = none ∧
    target (demo ++ [.removeSession 2]) 1 ⟨.int 9, "z", none, none, [], none, none, false⟩ = some (3, 3) ∧
    target (demo ++ [.receiveMessage 1 (.register ⟨.int 5, "free", []⟩)]) 3 ⟨.int 9, "free", none, none, [], none, none, false⟩ =
      some (1, 7) := by decide

end Wamp.Dealer
