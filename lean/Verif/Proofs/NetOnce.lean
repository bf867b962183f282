import Verif.Proofs.NetStory

/-! # The network: invocations, and one answer per call -/

namespace Wamp.Spec.Net
open Wamp.Spec.Ses

variable {W : Type} (c : Codec W)

/-! ## Where invocations come from -/

theorem Chain.ext {es : List Ev} {sched : List Act} (h : Chain [] es sched) {a : Act} {e : Ev} (he : e sched a) :
    Chain [] (e :: es) (sched ++ [a]) := ⟨sched, a, [], rfl, he, h⟩

/-- The invariant: no assumption about clients. -/
structure Sent (sched : List Act) (n : Net W) : Prop where
  up : ∀ s k m, n.conns s = some k → m ∈ k.up → Chain [] [Sends s m] sched
  inv : ∀ t k inv, n.conns t = some k → .invocation inv ∈ k.down →
    ∃ s m, SameContent m inv ∧ Chain [] [RoutesTo c s m t, Sends s (.call m)] sched

theorem sent_snoc {sched : List Act} {n : Net W} {N : Nat} (hn : n = run c sched) (hb : Base n N) (hN : N < 2 ^ 53)
    (h : Sent c sched n) (a : Act) : Sent c (sched ++ [a]) (n.step c a) := by
  have hs := stepCase c hb hN a
  generalize n.step c a = n' at hs ⊢
  have hl : n.dealer.length < 2 ^ 53 := Nat.lt_of_le_of_lt hb.dl hN
  have keep : ∀ n' : Net W, (∀ s k', n'.conns s = some k' → k' = {} ∨ ∃ k, n.conns s = some k ∧
      (∀ m ∈ k'.up, m ∈ k.up ∨ a = .send s m) ∧ ∀ m, .invocation m ∈ k'.down → .invocation m ∈ k.down ∨
        ∃ q cm, SameContent cm m ∧ Chain [] [RoutesTo c q cm s, Sends q (.call cm)] (sched ++ [a])) → Sent c (sched ++ [a]) n' := by
    intro n' hh
    refine ⟨?_, ?_⟩
    · intro s k' m hk' hm
      rcases hh s k' hk' with rfl | ⟨k, hk, h1, -⟩
      · cases hm
      · rcases h1 m hm with h1 | rfl
        · exact (h.up s k m hk h1).snoc a
        · exact Chain.ext (es := []) trivial rfl
    · intro s k' m hk' hm
      rcases hh s k' hk' with rfl | ⟨k, hk, -, h1⟩
      · cases hm
      · rcases h1 m hm with h1 | h1
        · obtain ⟨q, cm, g1, g2⟩ := h.inv s k m hk h1
          exact ⟨q, cm, g1, g2.snoc a⟩
        · exact h1
  have route : ∀ (s : Int) (k : Conn W) (m : Message) (rest : List Message), n.conns s = some k → k.up = m :: rest →
      ∀ (B : List Broker.Op) (D : List Dealer.Op) (out : List (Int × Message)),
      (∀ t inv, (t, .invocation inv) ∈ out →
        ∃ q cm, SameContent cm inv ∧ Chain [] [RoutesTo c q cm t, Sends q (.call cm)] (sched ++ [a])) →
      Sent c (sched ++ [a]) ((⟨B, D, (n.setConn s (some { k with up := rest })).conns⟩ : Net W).push out) := by
    intro s k m rest hk hu B D out hout
    refine keep _ ?_
    intro s' k' hk'
    obtain ⟨k0, h0, h1, h2, h3⟩ := route_some hk hk'
    refine .inr ⟨k0, h0, ?_, ?_⟩
    · intro x hx
      left
      rcases h2 with ⟨rfl, h2⟩ | ⟨-, h2⟩
      · rw [hk] at h0; cases h0; rw [hu]; rw [h2] at hx; exact List.mem_cons_of_mem _ hx
      · rw [h2] at hx; exact hx
    · intro x hx
      rw [h3] at hx
      rcases List.mem_append.1 hx with hx | hx
      · exact .inl hx
      · exact .inr (hout s' x (mem_inbox.1 hx))
  cases hs with
  | idle => exact keep _ fun s k hk => .inr ⟨k, hk, fun _ h => .inl h, fun _ h => .inl h⟩
  | joinFail d eb ed h1 h2 h3 => exact keep _ fun s k hk => .inr ⟨k, hk, fun _ h => .inl h, fun _ h => .inl h⟩
  | join d h1 h2 h3 =>
    refine keep _ fun s k hk => ?_
    simp only at hk
    split at hk
    · cases hk; exact .inl rfl
    · exact .inr ⟨k, hk, fun _ h => .inl h, fun _ h => .inl h⟩
  | leaveFail s eb ed h1 h2 h3 => exact keep _ fun s k hk => .inr ⟨k, hk, fun _ h => .inl h, fun _ h => .inl h⟩
  | leave s k0 h1 h2 h3 =>
    refine keep _ fun s k hk => ?_
    simp only at hk
    split at hk
    · cases hk
    · exact .inr ⟨k, hk, fun _ h => .inl h, fun _ h => .inl h⟩
  | send s m k0 h1 =>
    refine keep _ fun s' k hk => ?_
    simp only at hk
    split at hk
    · rename_i e; subst e; cases hk
      refine .inr ⟨k0, h1, ?_, fun _ h => .inl h⟩
      intro x hx
      simp only at hx
      split at hx
      · rcases List.mem_append.1 hx with hx | hx
        · exact .inl hx
        · rw [List.mem_singleton.1 hx]; exact .inr rfl
      · exact .inl hx
    · exact .inr ⟨k, hk, fun _ h => .inl h, fun _ h => .inl h⟩
  | deliver s m k0 rest h1 h2 =>
    refine keep _ fun s' k hk => ?_
    simp only at hk
    split at hk
    · rename_i e; subst e; cases hk
      exact .inr ⟨k0, h1, fun _ h => .inl h, fun _ h => .inl (by rw [h2]; exact List.mem_cons_of_mem _ h)⟩
    · exact .inr ⟨k, hk, fun _ h => .inl h, fun _ h => .inl h⟩
  | routeB s m k0 rest op h1 h2 h3 =>
    refine route s k0 m rest h1 h2 _ _ _ ?_
    intro t inv hx
    have := brokerOut_isPub n.broker op _ hx
    cases this
  | routeD s m k0 rest op h1 h2 h3 =>
    refine route s k0 m rest h1 h2 _ _ _ ?_
    intro t inv hx
    obtain ⟨hr, -⟩ := rels n.dealer hl
    have hk := Dealer.kind (Dealer.after n.dealer) (Dealer.wf_after n.dealer) op
    have new : ∀ (cm : Call) (r : Ref) (i : Int), op = .receiveMessage s (.call cm) →
        (Dealer.after n.dealer).registrationsByProcedure.get cm.procedure = some r →
        ((Dealer.after n.dealer).heap r).registrants = Dealer.one t →
        inv = Dealer.invocationFor cm i ((Dealer.after n.dealer).heap r).id →
        ∃ q cm, SameContent cm inv ∧ Chain [] [RoutesTo c q cm t, Sends q (.call cm)] (sched ++ [.route s]) := by
      rintro cm r i rfl g1 g2 rfl
      have hm : m = .call cm := by
        cases m <;> simp only [dealerCall, Option.some.injEq, Dealer.Op.receiveMessage.injEq, reduceCtorEq, and_false] at h3
        rw [h3.2]
      subst hm
      refine ⟨s, cm, ⟨rfl, rfl, rfl, rfl⟩, Chain.ext (h.up s k0 _ h1 (by rw [h2]; exact List.mem_cons_self ..)) ?_⟩
      refine ⟨⟨rfl, k0, rest, by rw [← hn]; exact h1, h2⟩, ((Dealer.after n.dealer).heap r).id, ?_⟩
      rw [← hn]
      exact (hr.held _ _ _).2 ⟨r, g1, g2, rfl⟩
    rw [Dealer.outcome] at hx
    have hop : ∀ s' m', op = .receiveMessage s' m' → s' = s := by
      rintro s' m' rfl
      cases m <;> simp only [dealerCall, Option.some.injEq, Dealer.Op.receiveMessage.injEq, reduceCtorEq] at h3 <;> exact h3.1.symm
    generalize (Dealer.after n.dealer).step op = res at hk hx
    cases hk <;> simp only [dealerOut, List.not_mem_nil, List.mem_singleton, Prod.mk.injEq, reduceCtorEq, and_false,
      Message.invocation.injEq] at hx
    case callContinue s' m' r q i g1 g2 g3 g4 =>
      cases hop _ _ rfl
      obtain ⟨rfl, e⟩ := hx
      exact new m' r _ rfl g1 g2 e
    case callNew s' m' r q g1 g2 g3 =>
      cases hop _ _ rfl
      obtain ⟨rfl, e⟩ := hx
      exact new m' r _ rfl g1 g2 e
  | routeX s m k0 rest h1 h2 =>
    refine keep _ fun s' k hk => ?_
    simp only at hk
    split at hk
    · rename_i e; subst e; cases hk
      exact .inr ⟨k0, h1, fun x hx => .inl (by rw [h2]; exact List.mem_cons_of_mem _ hx), fun _ h => .inl h⟩
    · exact .inr ⟨k, hk, fun _ h => .inl h, fun _ h => .inl h⟩

theorem sent_run (sched : List Act) : sched.length ≤ 2 ^ 53 → Sent c sched (run c sched) := by
  induction sched using snoc_induction with
  | nil => intro _; exact ⟨fun s k m hk => (by cases hk), fun s k m hk => (by cases hk)⟩
  | snoc sched a ih =>
    intro hl
    have h1 : sched.length + 1 ≤ 2 ^ 53 := by rw [List.length_append] at hl; exact hl
    rw [run_snoc]
    exact sent_snoc c rfl (base_run c sched (by omega)) (by omega) (ih (by omega)) a

/-! ## Without a request, nothing is outstanding -/

/-- What a client is waiting for after an action it was waiting for before, or has just requested. -/
theorem has_net {n : Net W} {a : Act} {s : Int} {k' : Conn W} (hk' : (n.step c a).conns s = some k') {kd : Kind} {i : Int}
    (h : (WAMPSession.after c k'.calls).has kd i) :
    (∃ k, n.conns s = some k ∧ (WAMPSession.after c k.calls).has kd i ∧
      ¬ ∃ b rest, a = .deliver s ∧ k.down = b :: rest ∧ replyTo b = some (kd, i)) ∨
    ∃ m, a = .send s m ∧ requestOf m = some (kd, i) := by
  cases a with
  | join d =>
    simp only [Net.step] at hk'
    split at hk'
    · rw [setConn_conns] at hk'
      split at hk'
      · cases hk'; cases kd <;> cases h
      · exact .inl ⟨k', hk', h, fun ⟨b, rest, e, _⟩ => by cases e⟩
    · exact .inl ⟨k', hk', h, fun ⟨b, rest, e, _⟩ => by cases e⟩
  | leave s' =>
    simp only [Net.step, setConn_conns] at hk'
    split at hk'
    · cases hk'
    · exact .inl ⟨k', hk', h, fun ⟨b, rest, e, _⟩ => by cases e⟩
  | send s' m =>
    cases hc : n.conns s' with
    | none => rw [step_send_none c hc] at hk'; exact .inl ⟨k', hk', h, fun ⟨b, rest, e, _⟩ => by cases e⟩
    | some k =>
      rw [step_send c hc, setConn_conns] at hk'
      split at hk'
      · rename_i e; subst e; cases hk'
        rw [after_send, WAMPSession.has_send] at h
        rcases h with h | h
        · exact .inr ⟨m, rfl, h⟩
        · exact .inl ⟨k, hc, h, fun ⟨b, rest, e, _⟩ => by cases e⟩
      · exact .inl ⟨k', hk', h, fun ⟨b, rest, e, _⟩ => by cases e⟩
  | deliver s' =>
    left
    cases hc : n.conns s' with
    | none =>
      simp only [Net.step, hc] at hk'
      refine ⟨k', hk', h, ?_⟩
      rintro ⟨b, rest, e, -⟩; cases e; rw [hc] at hk'; cases hk'
    | some k =>
      cases hm : k.down with
      | nil =>
        simp only [Net.step, hc, hm] at hk'
        refine ⟨k', hk', h, ?_⟩
        rintro ⟨b, rest, e, e', -⟩; cases e; rw [hc] at hk'; cases hk'; rw [hm] at e'; cases e'
      | cons m rest =>
        rw [step_deliver c hc hm, setConn_conns] at hk'
        split at hk'
        · rename_i e; subst e; cases hk'
          rw [after_recv, WAMPSession.has_recv] at h
          refine ⟨k, hc, h.1, ?_⟩
          rintro ⟨b, rest', -, e', e''⟩
          rw [hm] at e'; cases e'; exact h.2 e''
        · rename_i hne
          refine ⟨k', hk', h, ?_⟩
          rintro ⟨b, rest, e, -⟩; cases e; exact hne rfl
  | route s' =>
    left
    have : ∃ k, n.conns s = some k ∧ k.calls = k'.calls := by
      cases hc : n.conns s' with
      | none => simp only [Net.step, hc] at hk'; exact ⟨k', hk', rfl⟩
      | some k =>
        cases hm : k.up with
        | nil => simp only [Net.step, hc, hm] at hk'; exact ⟨k', hk', rfl⟩
        | cons m rest =>
          rw [step_route c hc hm] at hk'
          simp only [Net.handle] at hk'
          have pop : ∀ k1, (n.setConn s' (some { k with up := rest })).conns s = some k1 → ∃ k0, n.conns s = some k0 ∧ k0.calls = k1.calls := by
            intro k1 h1
            rw [setConn_conns] at h1
            split at h1
            · rename_i e; subst e; cases h1; exact ⟨k, hc, rfl⟩
            · exact ⟨k1, h1, rfl⟩
          split at hk'
          · obtain ⟨k1, h1, rfl⟩ := push_some hk'; exact pop k1 h1
          · obtain ⟨k1, h1, rfl⟩ := push_some hk'; exact pop k1 h1
          · exact pop k' hk'
    obtain ⟨k, h1, h2⟩ := this
    exact ⟨k, h1, by rw [h2]; exact h, fun ⟨b, rest, e, _⟩ => by cases e⟩

theorem has_since (pre : List Act) {s : Int} {kd : Kind} {i : Int}
    (h0 : ∀ k, (run c pre).conns s = some k → ¬ (WAMPSession.after c k.calls).has kd i) (mid : List Act) :
    ∀ k, (run c (pre ++ mid)).conns s = some k → (WAMPSession.after c k.calls).has kd i →
      ∃ m, .send s m ∈ mid ∧ requestOf m = some (kd, i) := by
  induction mid using snoc_induction with
  | nil => intro k hk h; rw [List.append_nil] at hk; exact absurd h (h0 k hk)
  | snoc mid a ih =>
    intro k hk h
    rw [← List.append_assoc, run_snoc] at hk
    rcases has_net c hk h with ⟨k0, h1, h2, -⟩ | ⟨m, rfl, hm⟩
    · obtain ⟨m, g1, g2⟩ := ih k0 h1 h2
      exact ⟨m, List.mem_append_left _ g1, g2⟩
    · exact ⟨m, by simp, hm⟩

end Wamp.Spec.Net
