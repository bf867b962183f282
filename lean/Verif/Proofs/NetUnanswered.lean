import Verif.Proofs.NetWait
import Verif.Props.BrokerTable
import Verif.Props.DealerTable

/-! # The network: requests nobody answers -/

namespace Wamp.Spec.Net
open Wamp.Spec.Ses

variable {W : Type} (c : Codec W)

/-! ## The router answers a request when it is asked, and at no other time -/

theorem dealer_outcome_table (ops : List Dealer.Op) (hl : ops.length < 2 ^ 53) (op : Dealer.Op) :
    Dealer.graded (Dealer.outcome ops op) = some ((Dealer.tableAfter ops).step op).2 := by
  have h := (Dealer.C80_dealer_is_table (ops ++ [op]) (by rw [List.length_append]; exact hl)).2
  rw [Dealer.trace_snoc, List.map_append, Dealer.answers_append, List.map_append] at h
  have := (List.append_inj' h rfl).2
  simp only [List.map_cons, List.map_nil, List.cons.injEq, and_true] at this
  exact this

theorem broker_outcome_table (ops : List Broker.Op) (hl : ops.length < 2 ^ 53) (op : Broker.Op) :
    (Broker.outcome ops op).toOption = ((Broker.tableAfter ops).step op).2 := by
  have h := (Broker.C79_broker_is_table (ops ++ [op]) (by rw [List.length_append]; exact hl)).2.1
  rw [Broker.trace_snoc, List.map_append, Broker.answers_append] at h
  have := (List.append_inj' h rfl).2
  simp only [List.map_cons, List.map_nil, List.cons.injEq, and_true] at this
  exact this

theorem broker_answers (ops : List Broker.Op) (hl : ops.length < 2 ^ 53) {s : Int} {m : Message} {op : Broker.Op}
    (hop : brokerCall s m = some op) {q : Int} {b : Message} (hb : (q, b) ∈ brokerOut (Broker.outcome ops op)) {kd : Kind} {r : Int}
    (hr : replyTo b = some (kd, r)) : q = s ∧ requestOf m = some (kd, r) := by
  have ht := broker_outcome_table ops hl op
  cases ho : Broker.outcome ops op with
  | error e => rw [ho] at hb; cases hb
  | ok o =>
    rw [ho] at ht hb
    change some o = _ at ht
    cases m <;> simp only [brokerCall, reduceCtorEq, Option.some.injEq] at hop <;> subst hop
    case publish m =>
      simp only [Pub.Table.step] at ht
      split at ht
      · cases ht
        rcases List.mem_append.1 hb with hb | hb
        · simp only [eventsOf] at hb
          split at hb
          · obtain ⟨q', -, e⟩ := List.mem_map.1 hb; cases e; cases hr
          · cases hb
        · simp only [ackOf] at hb
          split at hb
          · rename_i h
            split at h
            · rename_i hf
              cases h; cases List.mem_singleton.1 hb; cases hr
              exact ⟨rfl, if_pos hf⟩
            · cases h
          · cases hb
      · cases ht
    case subscribe m =>
      simp only [Pub.Table.step] at ht
      split at ht
      · split at ht <;> (cases ht; cases List.mem_singleton.1 hb; cases hr; exact ⟨rfl, rfl⟩)
      · cases ht
    case unsubscribe m =>
      simp only [Pub.Table.step] at ht
      split at ht
      · cases ht; cases List.mem_singleton.1 hb; cases hr; exact ⟨rfl, rfl⟩
      · cases ht

theorem dealer_answers (ops : List Dealer.Op) (hl : ops.length < 2 ^ 53) {s : Int} {m : Message} {op : Dealer.Op}
    (hop : dealerCall s m = some op) {q : Int} {b : Message} (hb : (q, b) ∈ dealerOut (Dealer.outcome ops op)) {kd : Kind} {r : Int}
    (hr : replyTo b = some (kd, r)) (hc : kd ≠ .call) : q = s ∧ requestOf m = some (kd, r) := by
  have ht := dealer_outcome_table ops hl op
  cases ho : Dealer.outcome ops op with
  | error e => rw [ho] at hb; cases hb
  | ok o =>
    rw [ho] at ht hb
    change some (Except.ok o) = _ at ht
    cases m <;> simp only [dealerCall, reduceCtorEq, Option.some.injEq] at hop <;> subst hop
    case call m =>
      simp only [Rpc.Table.step] at ht
      split at ht
      · cases ht; cases List.mem_singleton.1 hb; cases hr; exact absurd rfl hc
      · split at ht <;> (cases ht; cases List.mem_singleton.1 hb; cases hr)
    case register m =>
      simp only [Rpc.Table.step] at ht
      split at ht
      · split at ht <;> (cases ht; cases List.mem_singleton.1 hb; cases hr; exact ⟨rfl, rfl⟩)
      · cases ht
    case unregister m =>
      simp only [Rpc.Table.step] at ht
      split at ht
      · cases ht; cases List.mem_singleton.1 hb; cases hr; exact ⟨rfl, rfl⟩
      · cases ht
    case yield_ m =>
      simp only [Rpc.Table.step] at ht
      split at ht
      · cases ht
      · split at ht
        · cases ht
        · split at ht
          · cases ht; cases List.mem_singleton.1 hb; cases hr; exact absurd rfl hc
          · split at ht
            · cases ht
            · cases ht; cases List.mem_singleton.1 hb; cases hr; exact absurd rfl hc
    case error m =>
      simp only [Rpc.Table.step] at ht
      split at ht
      · cases ht
      · cases ht; cases List.mem_singleton.1 hb; cases hr; exact absurd rfl hc

/-! ## Under way or lost -/

theorem lost_mono {sched : List Act} {s : Int} {kd : Kind} {r : Int} (h : LostRequest c sched s kd r) {a : Act} (ha : a ≠ .leave s) :
    LostRequest c (sched ++ [a]) s kd r := by
  obtain ⟨pre, a0, post, k, e, h1, h2⟩ := h
  refine ⟨pre, a0, post ++ [a], k, by simp [e], ?_, h2⟩
  intro h
  rcases List.mem_append.1 h with h | h
  · exact h1 h
  · exact ha (List.mem_singleton.1 h).symm

theorem returned_request (st : List (WAMPSession.Op W)) {m : Message} {w : W} (hw : c.serialize m = .ok w) {x : Kind × Int}
    (hh : requestOf m = some x) : returned (WAMPSession.outcome c st (.sendMessage m)) = true := by
  have ho : returned (WAMPSession.outcome c st (.sendMessage m)) = returned ((WAMPSession.after c st).sendMessage c m).2 := by
    simp only [WAMPSession.outcome, WAMPSession.step]
    cases ((WAMPSession.after c st).sendMessage c m).2 <;> rfl
  rw [ho]
  cases m <;> simp only [requestOf, reduceCtorEq] at hh <;> simp only [WAMPSession.sendMessage]
  all_goals try (split <;> simp [hw, returned]; done)
  all_goals simp [hw, returned]

theorem underWay_or_lost (sched : List Act) : sched.length ≤ 2 ^ 53 → ∀ s k kd r, (run c sched).conns s = some k → kd ≠ .call →
    (WAMPSession.after c k.calls).has kd r → UnderWay k kd r ∨ LostRequest c sched s kd r := by
  induction sched using snoc_induction with
  | nil => intro _ s k kd r hk; cases hk
  | snoc sched a ih =>
    intro hl
    have h1 : sched.length + 1 ≤ 2 ^ 53 := by rw [List.length_append] at hl; exact hl
    have hb := base_run c sched (by omega)
    have hN : sched.length < 2 ^ 53 := by omega
    have h := ih (by omega)
    have hs := stepCase c hb hN a
    have hleave : ∀ s, a = .leave s → ((run c sched).step c a).conns s = none := step_leave c _ a
    rw [run_snoc]
    intro s k kd r hk hkd hh
    have hal : a ≠ .leave s := by intro e; rw [hleave s e] at hk; cases hk
    -- nothing has happened to this client
    have same : ∀ k', (run c sched).conns s = some k' → k' = k → UnderWay k kd r ∨ LostRequest c (sched ++ [a]) s kd r := by
      rintro k' hk' rfl
      exact (h s k' kd r hk' hkd hh).imp_right fun h => lost_mono c h hal
    generalize (run c sched).step c a = n' at hs hk
    have routed : ∀ s0 k0 m rest (out : List (Int × Message)), a = .route s0 → (run c sched).conns s0 = some k0 → k0.up = m :: rest →
        (s = s0 → requestOf m = some (kd, r) → (∃ b, (s, b) ∈ out ∧ replyTo b = some (kd, r)) ∨ LostRequest c (sched ++ [a]) s kd r) →
        ((if s = s0 then some { k0 with up := rest } else (run c sched).conns s).map
          fun k : Conn W => (⟨k.calls, k.up, k.down ++ inbox out s⟩ : Conn W)) = some k →
        UnderWay k kd r ∨ LostRequest c (sched ++ [a]) s kd r := by
      intro s0 k0 m rest out ea hk0 hu ha hk'
      split at hk'
      · rename_i e; subst e; cases hk'
        rcases h s k0 kd r hk0 hkd hh with (⟨m', hm', e⟩ | ⟨b, hb, e⟩) | h
        · rw [hu] at hm'
          rcases List.mem_cons.1 hm' with rfl | hm'
          · rcases ha rfl e with ⟨b, g1, g2⟩ | h
            · exact .inl (.inr ⟨b, List.mem_append_right _ (mem_inbox.2 g1), g2⟩)
            · exact .inr h
          · exact .inl (.inl ⟨m', hm', e⟩)
        · exact .inl (.inr ⟨b, List.mem_append_left _ hb, e⟩)
        · exact .inr (lost_mono c h hal)
      · cases h0 : (run c sched).conns s with
        | none => rw [h0] at hk'; cases hk'
        | some k1 =>
          rw [h0] at hk'; cases hk'
          rcases h s k1 kd r h0 hkd hh with (h | ⟨b, hb, e⟩) | h
          · exact .inl (.inl h)
          · exact .inl (.inr ⟨b, List.mem_append_left _ hb, e⟩)
          · exact .inr (lost_mono c h hal)
    cases hs with
    | idle => exact same k hk rfl
    | joinFail => exact same k hk rfl
    | leaveFail => exact same k hk rfl
    | join d =>
      simp only at hk
      split at hk
      · cases hk; cases kd <;> cases hh
      · exact same k hk rfl
    | leave s0 =>
      simp only at hk
      split at hk
      · cases hk
      · exact same k hk rfl
    | send s0 m k0 g1 =>
      simp only at hk
      split at hk
      · rename_i e; subst e; cases hk
        simp only [after_send, WAMPSession.has_send] at hh
        rcases hh with hh | hh
        · by_cases hw : ∃ w, c.serialize m = .ok w
          · obtain ⟨w, hw⟩ := hw
            refine .inl (.inl ⟨m, ?_, hh⟩)
            simp only [returned_request c k0.calls hw hh, if_true]; simp
          · exact .inr ⟨sched, _, [], k0, rfl, by simp, g1, .inl ⟨m, rfl, hh, fun w e => hw ⟨w, e⟩⟩⟩
        · rcases h s k0 kd r g1 hkd hh with (⟨m', hm', e⟩ | h) | h
          · refine .inl (.inl ⟨m', ?_, e⟩)
            simp only; split
            · exact List.mem_append_left _ hm'
            · exact hm'
          · exact .inl (.inr h)
          · exact .inr (lost_mono c h hal)
      · exact same k hk rfl
    | deliver s0 m k0 rest g1 g2 =>
      simp only at hk
      split at hk
      · rename_i e; subst e; cases hk
        simp only [after_recv, WAMPSession.has_recv] at hh
        rcases h s k0 kd r g1 hkd hh.1 with (h | ⟨b, hb, e⟩) | h
        · exact .inl (.inl h)
        · rw [g2] at hb
          rcases List.mem_cons.1 hb with rfl | hb
          · exact absurd e hh.2
          · exact .inl (.inr ⟨b, hb, e⟩)
        · exact .inr (lost_mono c h hal)
      · exact same k hk rfl
    | routeB s0 m k0 rest op g1 g2 g3 =>
      refine routed s0 k0 m rest _ rfl g1 g2 ?_ hk
      rintro rfl hr
      by_cases hu : ∃ u, m = .unsubscribe u
      · obtain ⟨u, rfl⟩ := hu
        cases hr; cases g3
        by_cases hheld : HeldB (run c sched).broker s u.subscriptionId.val
        · rw [answered_unsub hb hN hheld]
          exact .inl ⟨_, List.mem_singleton.2 rfl, rfl⟩
        · exact .inr ⟨sched, _, [], k0, rfl, by simp, g1, .inr (.inl ⟨u, rest, rfl, g2, rfl, rfl, fun t ht => hheld ⟨t, ht⟩⟩)⟩
      · refine .inl ((answered_plain hb hN g1 hr ?_).1 op g3)
        cases m <;> simp only [brokerCall, reduceCtorEq, Option.some.injEq] at g3 <;> simp only [requestOf] at hr
        all_goals first | exact absurd ⟨_, rfl⟩ hu | (cases hr; simp; done) | (split at hr <;> cases hr; simp)
    | routeD s0 m k0 rest op g1 g2 g3 =>
      refine routed s0 k0 m rest _ rfl g1 g2 ?_ hk
      rintro rfl hr
      by_cases hu : ∃ u, m = .unregister u
      · obtain ⟨u, rfl⟩ := hu
        cases hr; cases g3
        by_cases hheld : HeldD (run c sched).dealer s u.registrationId.val
        · rw [answered_unreg hb hN hheld]
          exact .inl ⟨_, List.mem_singleton.2 rfl, rfl⟩
        · exact .inr ⟨sched, _, [], k0, rfl, by simp, g1, .inr (.inr ⟨u, rest, rfl, g2, rfl, rfl, fun t ht => hheld ⟨t, ht⟩⟩)⟩
      · refine .inl ((answered_plain hb hN g1 hr ?_).2 op g3)
        cases m <;> simp only [dealerCall, reduceCtorEq, Option.some.injEq] at g3 <;> simp only [requestOf, reduceCtorEq] at hr
        all_goals first | exact absurd ⟨_, rfl⟩ hu | (cases hr; exact absurd rfl hkd) | (cases hr; simp; done)
    | routeX s0 m k0 rest g1 g2 g3 =>
      simp only at hk
      split at hk
      · rename_i e; subst e; cases hk
        rcases h s k0 kd r g1 hkd hh with (⟨m', hm', e⟩ | h) | h
        · rw [g2] at hm'
          rcases List.mem_cons.1 hm' with rfl | hm'
          · rw [g3] at e; cases e
          · exact .inl (.inl ⟨m', hm', e⟩)
        · exact .inl (.inr h)
        · exact .inr (lost_mono c h hal)
      · exact same k hk rfl

/-! ## For ever -/

theorem unanswered_step {n : Net W} {N : Nat} (hb : Base n N) (hN : N < 2 ^ 53) {s : Int} {kd : Kind} {r : Int} (hkd : kd ≠ .call)
    (h : ∃ k, n.conns s = some k ∧ (WAMPSession.after c k.calls).has kd r ∧ ¬ UnderWay k kd r) (a : Act) (hleave : a ≠ .leave s)
    (hsend : ∀ m, a = .send s m → requestOf m ≠ some (kd, r)) :
    ∃ k, (n.step c a).conns s = some k ∧ (WAMPSession.after c k.calls).has kd r ∧ ¬ UnderWay k kd r := by
  have hs := stepCase c hb hN a
  generalize n.step c a = n' at hs ⊢
  obtain ⟨k, hk, hh, hu⟩ := h
  have routed : ∀ s0 k0 m rest (out : List (Int × Message)), n.conns s0 = some k0 → k0.up = m :: rest →
      (∀ b, (s, b) ∈ out → replyTo b = some (kd, r) → s = s0 ∧ requestOf m = some (kd, r)) →
      ∃ k, ((if s = s0 then some { k0 with up := rest } else n.conns s).map
        fun k : Conn W => (⟨k.calls, k.up, k.down ++ inbox out s⟩ : Conn W)) = some k ∧
        (WAMPSession.after c k.calls).has kd r ∧ ¬ UnderWay k kd r := by
    intro s0 k0 m rest out hk0 hu0 ha
    have hno : ∀ b ∈ inbox out s, replyTo b ≠ some (kd, r) := by
      intro b hb e
      obtain ⟨rfl, e2⟩ := ha b (mem_inbox.1 hb) e
      rw [hk] at hk0; cases hk0
      exact hu (.inl ⟨m, by rw [hu0]; exact List.mem_cons_self .., e2⟩)
    split
    · rename_i e; subst e
      rw [hk] at hk0; cases hk0
      refine ⟨_, rfl, hh, ?_⟩
      rintro (⟨m', hm', e⟩ | ⟨b, hb, e⟩)
      · exact hu (.inl ⟨m', by rw [hu0]; exact List.mem_cons_of_mem _ hm', e⟩)
      · rcases List.mem_append.1 hb with hb | hb
        · exact hu (.inr ⟨b, hb, e⟩)
        · exact hno b hb e
    · rw [hk]
      refine ⟨_, rfl, hh, ?_⟩
      rintro (h | ⟨b, hb, e⟩)
      · exact hu (.inl h)
      · rcases List.mem_append.1 hb with hb | hb
        · exact hu (.inr ⟨b, hb, e⟩)
        · exact hno b hb e
  have hbl : n.broker.length < 2 ^ 53 := Nat.lt_of_le_of_lt hb.bl hN
  have hdl : n.dealer.length < 2 ^ 53 := Nat.lt_of_le_of_lt hb.dl hN
  cases hs with
  | idle => exact ⟨k, hk, hh, hu⟩
  | joinFail => exact ⟨k, hk, hh, hu⟩
  | leaveFail => exact ⟨k, hk, hh, hu⟩
  | join d g1 =>
    refine ⟨k, ?_, hh, hu⟩
    simp only
    rw [if_neg]
    · exact hk
    · rintro rfl; rw [hk] at g1; cases g1
  | leave s0 =>
    refine ⟨k, ?_, hh, hu⟩
    simp only
    rw [if_neg]
    · exact hk
    · rintro rfl; exact hleave rfl
  | send s0 m k0 g1 =>
    by_cases e : s = s0
    · subst e
      rw [hk] at g1; cases g1
      refine ⟨_, if_pos rfl, ?_, ?_⟩
      · simp only [after_send, WAMPSession.has_send]; exact .inr hh
      · rintro (⟨m', hm', e⟩ | h)
        · simp only at hm'
          split at hm'
          · rcases List.mem_append.1 hm' with hm' | hm'
            · exact hu (.inl ⟨m', hm', e⟩)
            · cases List.mem_singleton.1 hm'; exact hsend _ rfl e
          · exact hu (.inl ⟨m', hm', e⟩)
        · exact hu (.inr h)
    · exact ⟨k, by simp only [e, if_false]; exact hk, hh, hu⟩
  | deliver s0 m k0 rest g1 g2 =>
    by_cases e : s = s0
    · subst e
      rw [hk] at g1; cases g1
      refine ⟨_, if_pos rfl, ?_, ?_⟩
      · simp only [after_recv, WAMPSession.has_recv]
        exact ⟨hh, fun e => hu (.inr ⟨m, by rw [g2]; exact List.mem_cons_self .., e⟩)⟩
      · rintro (h | ⟨b, hb, e⟩)
        · exact hu (.inl h)
        · exact hu (.inr ⟨b, by rw [g2]; exact List.mem_cons_of_mem _ hb, e⟩)
    · exact ⟨k, by simp only [e, if_false]; exact hk, hh, hu⟩
  | routeB s0 m k0 rest op g1 g2 g3 =>
    exact routed s0 k0 m rest _ g1 g2 fun b hb e => broker_answers n.broker hbl g3 hb e
  | routeD s0 m k0 rest op g1 g2 g3 =>
    exact routed s0 k0 m rest _ g1 g2 fun b hb e => dealer_answers n.dealer hdl g3 hb e hkd
  | routeX s0 m k0 rest g1 g2 g3 =>
    by_cases e : s = s0
    · subst e
      rw [hk] at g1; cases g1
      refine ⟨_, if_pos rfl, hh, ?_⟩
      rintro (⟨m', hm', e⟩ | h)
      · exact hu (.inl ⟨m', by rw [g2]; exact List.mem_cons_of_mem _ hm', e⟩)
      · exact hu (.inr h)
    · exact ⟨k, by simp only [e, if_false]; exact hk, hh, hu⟩

end Wamp.Spec.Net
