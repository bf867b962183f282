import Verif.Proofs.NetLive
import Verif.Proofs.NetPub
import Verif.Spec.Wait

/-! # The network: no request is lost -/

namespace Wamp.Spec.Net
open Wamp.Spec.Ses

variable {W : Type} (c : Codec W)

/-! ## Withdrawals on their way name things that are held -/

/-- What the withdrawals on their way name: different things, all held. -/
def Claims (wid : Message → Option Int) (H : Int → Int → Prop) (conns : Int → Option (Conn W)) : Prop :=
  ∀ s k, conns s = some k → (k.up.filterMap wid).Nodup ∧ ∀ i ∈ k.up.filterMap wid, H s i

theorem claims_step {wid : Message → Option Int} {H H' : Int → Int → Prop} {n : Net W} {a : Act} {n' : Net W}
    (hs : StepCase c n a n') (h : Claims wid H n.conns) (hleave : ∀ s, a = .leave s → n'.conns s = none)
    (hsend : ∀ s m k i, a = .send s m → n.conns s = some k → wid m = some i → H s i ∧ i ∉ k.up.filterMap wid)
    (hkeep : ∀ s i, H s i → a ≠ .leave s →
      (∀ k m rest, a = .route s → n.conns s = some k → k.up = m :: rest → wid m ≠ some i) → H' s i) :
    Claims wid H' n'.conns := by
  -- a client whose channel to the router is as before
  have same : ∀ s k, n.conns s = some k → a ≠ .leave s → a ≠ .route s → ∀ k' : Conn W, k'.up = k.up →
      (k'.up.filterMap wid).Nodup ∧ ∀ i ∈ k'.up.filterMap wid, H' s i := by
    intro s k hk h1 h2 k' e
    rw [e]
    exact ⟨(h s k hk).1, fun i hi => hkeep s i ((h s k hk).2 i hi) h1 (fun _ _ _ e => absurd e h2)⟩
  -- the client whose message the router handles
  have popped : ∀ s k m rest, a = .route s → n.conns s = some k → k.up = m :: rest → ∀ k' : Conn W, k'.up = rest →
      (k'.up.filterMap wid).Nodup ∧ ∀ i ∈ k'.up.filterMap wid, H' s i := by
    intro s k m rest ea hk hu k' e
    obtain ⟨g1, g2⟩ := h s k hk
    rw [hu, List.filterMap_cons] at g1 g2
    rw [e]
    cases hw : wid m with
    | none =>
      rw [hw] at g1 g2
      refine ⟨g1, fun i hi => hkeep s i (g2 i hi) (by rw [ea]; simp) ?_⟩
      intro k1 m1 rest1 _ hk1 hu1 e1
      rw [hk] at hk1; cases hk1
      rw [hu] at hu1; cases hu1
      rw [hw] at e1; cases e1
    | some j =>
      rw [hw] at g1 g2
      simp only [List.nodup_cons] at g1
      refine ⟨g1.2, fun i hi => hkeep s i (g2 i (List.mem_cons_of_mem _ hi)) (by rw [ea]; simp) ?_⟩
      intro k1 m1 rest1 _ hk1 hu1 e1
      rw [hk] at hk1; cases hk1
      rw [hu] at hu1; cases hu1
      rw [hw] at e1; cases e1
      exact g1.1 hi
  have routed : ∀ s k m rest (out : Int → List Message), a = .route s → n.conns s = some k → k.up = m :: rest →
      ∀ s' k', ((if s' = s then some { k with up := rest } else n.conns s').map
        fun k : Conn W => (⟨k.calls, k.up, k.down ++ out s'⟩ : Conn W)) = some k' →
      (k'.up.filterMap wid).Nodup ∧ ∀ i ∈ k'.up.filterMap wid, H' s' i := by
    intro s k m rest out ea hk hu s' k' hk'
    split at hk'
    · rename_i e; subst e; cases hk'
      exact popped s' k m rest ea hk hu _ rfl
    · rename_i e
      cases h0 : n.conns s' with
      | none => rw [h0] at hk'; cases hk'
      | some k0 =>
        rw [h0] at hk'; cases hk'
        exact same s' k0 h0 (by rw [ea]; simp) (by rw [ea]; simpa using fun e' => e e'.symm) _ rfl
  cases hs with
  | idle _ hi =>
    intro s k hk
    refine ⟨(h s k hk).1, fun i hmem => ?_⟩
    refine hkeep s i ((h s k hk).2 i hmem) ?_ ?_
    · intro e; rw [hleave s e] at hk; cases hk
    · intro k1 m1 rest1 ea hk1 hu1
      rw [hi s k1 ea hk1] at hu1; cases hu1
  | joinFail d eb ed h1 h2 h3 => intro s k hk; exact same s k hk (by simp) (by simp) k rfl
  | join d h1 h2 h3 =>
    intro s k hk
    simp only at hk
    split at hk
    · cases hk; simp
    · exact same s k hk (by simp) (by simp) k rfl
  | leaveFail s0 eb ed h1 h2 h3 =>
    intro s k hk
    refine same s k hk ?_ (by simp) k rfl
    intro e; rw [hleave s e] at hk; cases hk
  | leave s0 k0 h1 h2 h3 =>
    intro s k hk
    simp only at hk
    split at hk
    · cases hk
    · rename_i e
      exact same s k hk (by simpa using fun e' => e e'.symm) (by simp) k rfl
  | send s0 m k0 h1 =>
    intro s k hk
    simp only at hk
    split at hk
    · rename_i e; subst e; cases hk
      obtain ⟨g1, g2⟩ := same s k0 h1 (by simp) (by simp) k0 rfl
      cases hr : returned (WAMPSession.outcome c k0.calls (.sendMessage m)) with
      | false => simp only [Bool.false_eq_true, if_false]; exact ⟨g1, g2⟩
      | true =>
        simp only [if_true, List.filterMap_append, List.filterMap_cons, List.filterMap_nil]
        cases hw : wid m with
        | none => simp only [List.append_nil]; exact ⟨g1, g2⟩
        | some i =>
          obtain ⟨e1, e2⟩ := hsend s m k0 i rfl h1 hw
          refine ⟨List.nodup_append.2 ⟨g1, by simp, ?_⟩, ?_⟩
          · intro x hx y hy; rw [List.mem_singleton.1 hy]; rintro rfl; exact e2 hx
          · intro j hj
            rcases List.mem_append.1 hj with hj | hj
            · exact g2 j hj
            · rw [List.mem_singleton.1 hj]; exact hkeep s i e1 (by simp) (fun _ _ _ e => by cases e)
    · exact same s k hk (by simp) (by simp) k rfl
  | deliver s0 m k0 rest h1 h2 =>
    intro s k hk
    simp only at hk
    split at hk
    · rename_i e; subst e; cases hk
      exact same s k0 h1 (by simp) (by simp) _ rfl
    · exact same s k hk (by simp) (by simp) k rfl
  | routeB s m k0 rest op h1 h2 h3 =>
    intro s' k' hk'; exact routed s k0 m rest _ rfl h1 h2 s' k' hk'
  | routeD s m k0 rest op h1 h2 h3 =>
    intro s' k' hk'; exact routed s k0 m rest _ rfl h1 h2 s' k' hk'
  | routeX s m k0 rest h1 h2 =>
    intro s' k' hk'
    simp only at hk'
    split at hk'
    · rename_i e; subst e; cases hk'
      exact popped s' k0 m rest rfl h1 h2 _ rfl
    · rename_i e
      exact same s' k' hk' (by simp) (by simpa using fun e' => e e'.symm) k' rfl

/-- What an UNSUBSCRIBE names. -/
def unsubOf : Message → Option Int
  | .unsubscribe u => some u.subscriptionId.val
  | _ => none

/-- What an UNREGISTER names. -/
def unregOf : Message → Option Int
  | .unregister u => some u.registrationId.val
  | _ => none

theorem step_leave (n : Net W) (a : Act) (s : Int) (e : a = .leave s) : (n.step c a).conns s = none := by
  subst e; simp only [Net.step, setConn_conns, if_true]

theorem unsub_claims {n : Net W} {N : Nat} (hb : Base n N) (hN : N < 2 ^ 53) (hi : PubInv c n) (a : Act)
    (h : Claims unsubOf (HeldB n.broker) n.conns)
    (hp : ∀ s u k, a = .send s (.unsubscribe u) → n.conns s = some k → MayUnsubscribe c k u.subscriptionId.val) :
    Claims unsubOf (HeldB (n.step c a).broker) (n.step c a).conns := by
  have hs := stepCase c hb hN a
  have hl : n.broker.length ≤ 2 ^ 53 := by have := hb.bl; omega
  refine claims_step c hs h (step_leave c n a) ?_ ?_
  · intro s m k i ea hk hw
    cases m <;> simp only [unsubOf, reduceCtorEq, Option.some.injEq] at hw
    rename_i u
    subst hw
    have hmay := hp s u k ea hk
    have hc := hi s k hk
    constructor
    · refine hc.rep.keeps ((WAMPSession.grants_after c k.calls _ _).2 hmay.1) ?_
      intro r _ hn
      exact hmay.2 r ((WAMPSession.names_after c k.calls _ _ _).1 hn)
    · intro hmem
      obtain ⟨m', hm', e⟩ := List.mem_filterMap.1 hmem
      cases m' <;> simp only [unsubOf, reduceCtorEq, Option.some.injEq] at e
      have := hc.req.unsub rfl _ hm'
      rw [e] at this
      exact hmay.2 _ ((WAMPSession.names_after c k.calls _ _ _).1 this)
  · intro s i hh h1 h2
    have keep : ∀ op, ¬ Pub.Ends (op, Broker.outcome n.broker op) s i → HeldB (n.broker ++ [op]) s i := by
      intro op h; exact (heldB_snoc n.broker hl op s i).2 (.inr ⟨hh, h⟩)
    have notEnds : ∀ op r, (∀ m, op ≠ .receiveMessage s (.unsubscribe m)) → op ≠ .removeSession s → ¬ Pub.Ends (op, r) s i := by
      rintro op r h1 h2 (⟨m', out, e, -⟩ | ⟨out, e⟩)
      · exact h1 m' (congrArg Prod.fst e)
      · exact h2 (congrArg Prod.fst e)
    generalize n.step c a = n' at hs ⊢
    cases hs with
    | idle => exact hh
    | joinFail d => exact keep _ (notEnds _ _ (by simp) (by simp))
    | join d => exact keep _ (notEnds _ _ (by simp) (by simp))
    | leaveFail s0 => exact keep _ (notEnds _ _ (by simp) (by simpa using h1))
    | leave s0 => exact keep _ (notEnds _ _ (by simp) (by simpa using h1))
    | send => exact hh
    | deliver => exact hh
    | routeD => exact hh
    | routeX => exact hh
    | routeB s0 m k0 rest op g1 g2 g3 =>
      refine keep _ ?_
      rintro (⟨m', out, e, e'⟩ | ⟨out, e⟩)
      · have e1 : op = .receiveMessage s (.unsubscribe m') := congrArg Prod.fst e
        cases m <;> simp only [brokerCall, reduceCtorEq, Option.some.injEq] at g3 <;>
          rw [← g3] at e1 <;> first | (cases e1; done) | skip
        injection e1 with e1 e2; injection e2 with e2; subst e1 e2
        exact h2 k0 _ rest rfl g1 g2 (by rw [← e']; rfl)
      · exact (brokerCall_op g3).2 s (congrArg Prod.fst e)

theorem unreg_claims {n : Net W} {N : Nat} (hb : Base n N) (hN : N < 2 ^ 53) (hi : RpcInv c n) (a : Act)
    (h : Claims unregOf (HeldD n.dealer) n.conns)
    (hp : ∀ s u k, a = .send s (.unregister u) → n.conns s = some k → MayUnregister c k u.registrationId.val) :
    Claims unregOf (HeldD (n.step c a).dealer) (n.step c a).conns := by
  have hs := stepCase c hb hN a
  refine claims_step c hs h (step_leave c n a) ?_ ?_
  · intro s m k i ea hk hw
    cases m <;> simp only [unregOf, reduceCtorEq, Option.some.injEq] at hw
    rename_i u
    subst hw
    have hmay := hp s u k ea hk
    have hc := hi.conn s k hk
    constructor
    · refine hc.rep.keeps ((WAMPSession.grants_after c k.calls _ _).2 hmay.1) ?_
      intro r _ hn
      exact hmay.2 r ((WAMPSession.names_after c k.calls _ _ _).1 hn)
    · intro hmem
      obtain ⟨m', hm', e⟩ := List.mem_filterMap.1 hmem
      cases m' <;> simp only [unregOf, reduceCtorEq, Option.some.injEq] at e
      have := hc.req.unreg rfl _ hm'
      rw [e] at this
      exact hmay.2 _ ((WAMPSession.names_after c k.calls _ _ _).1 this)
  · intro s i hh h1 h2
    have keep : ∀ op, ¬ Rpc.Ends (op, Dealer.outcome n.dealer op) ⟨s, "", i⟩ → HeldD (n.dealer ++ [op]) s i := by
      intro op h; exact (heldD_snoc n.dealer op s i).2 (.inr ⟨hh, h⟩)
    have notEnds : ∀ op r, (∀ m, op ≠ .receiveMessage s (.unregister m)) → op ≠ .removeSession s →
        ¬ Rpc.Ends (op, r) ⟨s, "", i⟩ := by
      rintro op r h1 h2 (⟨m', out, e, -⟩ | ⟨out, e⟩)
      · exact h1 m' (congrArg Prod.fst e)
      · exact h2 (congrArg Prod.fst e)
    generalize n.step c a = n' at hs ⊢
    cases hs with
    | idle => exact hh
    | joinFail d => exact keep _ (notEnds _ _ (by simp) (by simp))
    | join d => exact keep _ (notEnds _ _ (by simp) (by simp))
    | leaveFail s0 => exact keep _ (notEnds _ _ (by simp) (by simpa using h1))
    | leave s0 => exact keep _ (notEnds _ _ (by simp) (by simpa using h1))
    | send => exact hh
    | deliver => exact hh
    | routeB => exact hh
    | routeX => exact hh
    | routeD s0 m k0 rest op g1 g2 g3 =>
      refine keep _ ?_
      rintro (⟨m', out, e, e'⟩ | ⟨out, e⟩)
      · have e1 : op = .receiveMessage s (.unregister m') := congrArg Prod.fst e
        cases m <;> simp only [dealerCall, reduceCtorEq, Option.some.injEq] at g3 <;>
          rw [← g3] at e1 <;> first | (cases e1; done) | skip
        all_goals injection e1 with e1 e2
        all_goals first | (cases e2; done) | skip
        injection e2 with e2; subst e1 e2
        exact h2 k0 _ rest rfl g1 g2 (congrArg some e')
      · exact (dealerCall_op g3).2 s (congrArg Prod.fst e)

/-! ## Requests waited for are under way -/

/-- Every outstanding request of these kinds is under way. -/
def Waiting (K : Kind → Bool) (n : Net W) : Prop :=
  ∀ s k kd r, n.conns s = some k → K kd = true → (WAMPSession.after c k.calls).has kd r → (kd, r) ∈ inFlight K k.up k.down

theorem wait_step {K : Kind → Bool} {n : Net W} {a : Act} {n' : Net W} (hs : StepCase c n a n') (h : Waiting c K n)
    (hser : ∀ s m, a = .send s m → ∃ w, c.serialize m = .ok w)
    (hB : ∀ s k m rest op, n.conns s = some k → k.up = m :: rest → brokerCall s m = some op → ∀ kd r, K kd = true →
      requestOf m = some (kd, r) → ∃ b, (s, b) ∈ brokerOut (Broker.outcome n.broker op) ∧ replyTo b = some (kd, r))
    (hD : ∀ s k m rest op, n.conns s = some k → k.up = m :: rest → dealerCall s m = some op → ∀ kd r, K kd = true →
      requestOf m = some (kd, r) → ∃ b, (s, b) ∈ dealerOut (Dealer.outcome n.dealer op) ∧ replyTo b = some (kd, r)) :
    Waiting c K n' := by
  have routed : ∀ s k m rest (out : List (Int × Message)), n.conns s = some k → k.up = m :: rest →
      (∀ kd r, K kd = true → requestOf m = some (kd, r) → ∃ b, (s, b) ∈ out ∧ replyTo b = some (kd, r)) →
      ∀ s' k' kd r, ((if s' = s then some { k with up := rest } else n.conns s').map
        fun k : Conn W => (⟨k.calls, k.up, k.down ++ inbox out s'⟩ : Conn W)) = some k' →
      K kd = true → (WAMPSession.after c k'.calls).has kd r → (kd, r) ∈ inFlight K k'.up k'.down := by
    intro s k m rest out hk hu ha s' k' kd r hk' hK hh
    split at hk'
    · rename_i e; subst e; cases hk'
      have := h s' k kd r hk hK hh
      rw [inFlight_append_down]
      rw [hu, inFlight_cons_up] at this
      rcases List.mem_append.1 this with this | this
      · obtain ⟨this, -⟩ := List.mem_filter.1 this
        obtain ⟨b, g1, g2⟩ := ha kd r hK (by simpa using this)
        refine List.mem_append_right _ (List.mem_filter.2 ⟨List.mem_filterMap.2 ⟨b, mem_inbox.2 g1, g2⟩, hK⟩)
      · exact List.mem_append_left _ this
    · cases h0 : n.conns s' with
      | none => rw [h0] at hk'; cases hk'
      | some k0 =>
        rw [h0] at hk'; cases hk'
        rw [inFlight_append_down]
        exact List.mem_append_left _ (h s' k0 kd r h0 hK hh)
  cases hs with
  | idle => exact h
  | joinFail => exact h
  | leaveFail => exact h
  | join d =>
    intro s k kd r hk hK hh
    simp only at hk
    split at hk
    · cases hk; cases kd <;> cases hh
    · exact h s k kd r hk hK hh
  | leave s0 =>
    intro s k kd r hk hK hh
    simp only at hk
    split at hk
    · cases hk
    · exact h s k kd r hk hK hh
  | send s0 m k0 h1 =>
    intro s k kd r hk hK hh
    simp only at hk
    split at hk
    · rename_i e; subst e; cases hk
      simp only [after_send, WAMPSession.has_send] at hh
      obtain ⟨w, hw⟩ := hser s m rfl
      rcases hh with hh | hh
      · have hret : returned (WAMPSession.outcome c k0.calls (.sendMessage m)) = true := by
          have ho : returned (WAMPSession.outcome c k0.calls (.sendMessage m)) =
              returned ((WAMPSession.after c k0.calls).sendMessage c m).2 := by
            simp only [WAMPSession.outcome, WAMPSession.step]
            cases ((WAMPSession.after c k0.calls).sendMessage c m).2 <;> rfl
          rw [ho]
          cases m <;> simp only [requestOf, reduceCtorEq] at hh <;> simp only [WAMPSession.sendMessage]
          all_goals try (split <;> simp [hw, returned]; done)
          all_goals simp [hw, returned]
        refine mem_inFlight.2 ⟨hK, .inl ⟨m, ?_, hh⟩⟩
        simp only [hret, if_true]; simp
      · have := h s k0 kd r h1 hK hh
        rw [mem_inFlight] at this ⊢
        rcases this with ⟨-, ⟨m', hm', e⟩ | h'⟩
        · refine ⟨hK, .inl ⟨m', ?_, e⟩⟩
          simp only; split
          · exact List.mem_append_left _ hm'
          · exact hm'
        · exact ⟨hK, .inr h'⟩
    · exact h s k kd r hk hK hh
  | deliver s0 m k0 rest h1 h2 =>
    intro s k kd r hk hK hh
    simp only at hk
    split at hk
    · rename_i e; subst e; cases hk
      simp only [after_recv, WAMPSession.has_recv] at hh
      have := h s k0 kd r h1 hK hh.1
      rw [h2, (inFlight_cons_down K _ _ m).mem_iff] at this
      rcases List.mem_append.1 this with this | this
      · obtain ⟨this, -⟩ := List.mem_filter.1 this
        exact absurd (by simpa using this) hh.2
      · exact this
    · exact h s k kd r hk hK hh
  | routeB s m k0 rest op h1 h2 h3 => exact routed s k0 m rest _ h1 h2 (hB s k0 m rest op h1 h2 h3)
  | routeD s m k0 rest op h1 h2 h3 => exact routed s k0 m rest _ h1 h2 (hD s k0 m rest op h1 h2 h3)
  | routeX s m k0 rest h1 h2 h3 =>
    intro s' k kd r hk hK hh
    simp only at hk
    split at hk
    · rename_i e; subst e; cases hk
      have := h s' k0 kd r h1 hK hh
      rw [h2, inFlight_cons_up, h3] at this
      simpa using this
    · exact h s' k kd r hk hK hh

/-- SUBSCRIBE, PUBLISH and REGISTER are always answered. -/
theorem answered_plain {n : Net W} {N : Nat} (hb : Base n N) (hN : N < 2 ^ 53) {s : Int} {k : Conn W} (hk : n.conns s = some k)
    {m : Message} {kd : Kind} {r : Int} (hr : requestOf m = some (kd, r))
    (hkd : kd = .subscribe ∨ kd = .publish ∨ kd = .register) :
    (∀ op, brokerCall s m = some op → ∃ b, (s, b) ∈ brokerOut (Broker.outcome n.broker op) ∧ replyTo b = some (kd, r)) ∧
    (∀ op, dealerCall s m = some op → ∃ b, (s, b) ∈ dealerOut (Dealer.outcome n.dealer op) ∧ replyTo b = some (kd, r)) := by
  have hbl : n.broker.length ≤ 2 ^ 53 := by have := hb.bl; omega
  have hdl : n.dealer.length < 2 ^ 53 := Nat.lt_of_le_of_lt hb.dl hN
  have hd := Dealer.C30_ids_not_exhausted _ hdl
  have hsb : s ∈ (Pub.view (Broker.trace n.broker)).known := by rw [hb.bk, hk]; rfl
  have hsd : s ∈ (Rpc.view (Dealer.trace n.dealer)).known := by rw [hb.dk, hk]; rfl
  constructor <;> intro op hop <;> cases m <;>
    simp only [brokerCall, dealerCall, reduceCtorEq, Option.some.injEq] at hop <;> subst hop
  case left.subscribe m =>
    cases hr
    obtain ⟨i, ho, -⟩ := Broker.C22_subscribe_known n.broker s m hsb
    rw [ho]; exact ⟨_, List.mem_singleton.2 rfl, rfl⟩
  case left.unsubscribe m => cases hr; simp at hkd
  case left.publish m =>
    simp only [requestOf] at hr
    split at hr
    · rename_i hf; cases hr
      obtain ⟨p, ho, -, -, ha⟩ := publish_out n.broker hbl s m hsb
      obtain ⟨i, e⟩ := ha hf
      rw [ho]
      refine ⟨.published ⟨m.requestId, .int i⟩, List.mem_append_right _ ?_, rfl⟩
      simp only [ackOf, e]; exact List.mem_singleton.2 rfl
    · cases hr
  case right.call m => cases hr; simp at hkd
  case right.yield_ m => cases hr
  case right.error m => cases hr
  case right.unregister m => cases hr; simp at hkd
  case right.register m =>
    cases hr
    by_cases hf : ∀ x ∈ (Rpc.view (Dealer.trace n.dealer)).held, x.procedure ≠ m.procedure
    · obtain ⟨i, ho, -⟩ := Dealer.C30_register_free n.dealer hd s m hsd hf
      rw [ho]; exact ⟨_, List.mem_singleton.2 rfl, rfl⟩
    · obtain ⟨x, hx, hp⟩ : ∃ x ∈ (Rpc.view (Dealer.trace n.dealer)).held, x.procedure = m.procedure :=
        Classical.byContradiction fun hn => hf fun x hx hp => hn ⟨x, hx, hp⟩
      obtain ⟨⟨e, ho, h1, h2, -⟩, -⟩ := Dealer.C30_register_taken n.dealer hd s m hsd x hx hp
      rw [ho]; refine ⟨_, List.mem_singleton.2 rfl, ?_⟩
      simp [replyTo, kindOfCode, h1, h2, PyInt.val]

theorem answered_unsub {n : Net W} {N : Nat} (hb : Base n N) (hN : N < 2 ^ 53) {s : Int} {u : Unsubscribe}
    (hh : HeldB n.broker s u.subscriptionId.val) :
    Broker.outcome n.broker (.receiveMessage s (.unsubscribe u)) = .ok (.reply ⟨.unsubscribed ⟨u.requestId⟩, s⟩) := by
  have hbl : n.broker.length ≤ 2 ^ 53 := by have := hb.bl; omega
  obtain ⟨t, ht⟩ := hh
  exact (Broker.C24_unsubscribe_held n.broker (Broker.C19_no_clash _ hbl) s t u ht).1

theorem answered_unreg {n : Net W} {N : Nat} (hb : Base n N) (hN : N < 2 ^ 53) {s : Int} {u : Unregister}
    (hh : HeldD n.dealer s u.registrationId.val) :
    Dealer.outcome n.dealer (.receiveMessage s (.unregister u)) = .ok (.reply ⟨.unregistered ⟨u.requestId⟩, s⟩) := by
  have hdl : n.dealer.length < 2 ^ 53 := Nat.lt_of_le_of_lt hb.dl hN
  obtain ⟨p, hp⟩ := hh
  exact (Dealer.C41_unregister_held n.dealer (Dealer.C30_ids_not_exhausted _ hdl) _ hp u rfl).1

/-- The kinds of request that are always answered. -/
def plainKind : Kind → Bool
  | .subscribe | .publish | .register => true
  | _ => false

theorem wait_plain_run (sched : List Act) : sched.length ≤ 2 ^ 53 → Serializes c sched → Waiting c plainKind (run c sched) := by
  induction sched using snoc_induction with
  | nil => intro _ _ s k kd r hk; cases hk
  | snoc sched a ih =>
    intro hl hs
    have h1 : sched.length + 1 ≤ 2 ^ 53 := by rw [List.length_append] at hl; exact hl
    have hb := base_run c sched (by omega)
    have hN : sched.length < 2 ^ 53 := by omega
    rw [run_snoc]
    refine wait_step c (stepCase c hb hN a) (ih (by omega) (fun s m h => hs s m (List.mem_append_left _ h))) ?_ ?_ ?_
    · rintro s m rfl; exact hs s m (by simp)
    · intro s k m rest op hk hu hop kd r hK hr
      exact (answered_plain hb hN hk hr (by cases kd <;> simp [plainKind] at hK ⊢)).1 op hop
    · intro s k m rest op hk hu hop kd r hK hr
      exact (answered_plain hb hN hk hr (by cases kd <;> simp [plainKind] at hK ⊢)).2 op hop

theorem unsub_claims_run (sched : List Act) : sched.length ≤ 2 ^ 53 → FreshRequests c pubSub sched → PoliteUnsubscribes c sched →
    Claims unsubOf (HeldB (run c sched).broker) (run c sched).conns := by
  induction sched using snoc_induction with
  | nil => intro _ _ _ s k hk; cases hk
  | snoc sched a ih =>
    intro hl hf hp
    have h1 : sched.length + 1 ≤ 2 ^ 53 := by rw [List.length_append] at hl; exact hl
    rw [run_snoc]
    refine unsub_claims c (base_run c sched (by omega)) (by omega) (pub_run c sched (by omega) (fresh_snoc c hf).1) a
      (ih (by omega) (fresh_snoc c hf).1 (fun pre s u post e => hp pre s u (post ++ [a]) (by simp [e]))) ?_
    rintro s u k rfl hk; exact hp sched s u [] rfl k hk

theorem unreg_claims_run (sched : List Act) : sched.length ≤ 2 ^ 53 → GoodClients c sched → PoliteUnregisters c sched →
    Claims unregOf (HeldD (run c sched).dealer) (run c sched).conns := by
  induction sched using snoc_induction with
  | nil => intro _ _ _ s k hk; cases hk
  | snoc sched a ih =>
    intro hl hg hp
    have h1 : sched.length + 1 ≤ 2 ^ 53 := by rw [List.length_append] at hl; exact hl
    rw [run_snoc]
    refine unreg_claims c (base_run c sched (by omega)) (by omega) (rpc_run c sched (by omega) hg.init) a
      (ih (by omega) hg.init (fun pre s u post e => hp pre s u (post ++ [a]) (by simp [e]))) ?_
    rintro s u k rfl hk; exact hp sched s u [] rfl k hk

theorem wait_unsub_run (sched : List Act) : sched.length ≤ 2 ^ 53 → Serializes c sched → FreshRequests c pubSub sched →
    PoliteUnsubscribes c sched → Waiting c (· = .unsubscribe) (run c sched) := by
  induction sched using snoc_induction with
  | nil => intro _ _ _ _ s k kd r hk; cases hk
  | snoc sched a ih =>
    intro hl hs hf hp
    have h1 : sched.length + 1 ≤ 2 ^ 53 := by rw [List.length_append] at hl; exact hl
    have hb := base_run c sched (by omega)
    have hN : sched.length < 2 ^ 53 := by omega
    have hf' := (fresh_snoc c hf).1
    have hp' : PoliteUnsubscribes c sched := fun pre s u post e => hp pre s u (post ++ [a]) (by simp [e])
    rw [run_snoc]
    refine wait_step c (stepCase c hb hN a) (ih (by omega) (fun s m h => hs s m (List.mem_append_left _ h)) hf' hp') ?_ ?_ ?_
    · rintro s m rfl; exact hs s m (by simp)
    · intro s k m rest op hk hu hop kd r hK hr
      simp only [decide_eq_true_eq] at hK; subst hK
      cases m <;> simp only [requestOf, reduceCtorEq, Option.some.injEq, Prod.mk.injEq, false_and] at hr
      all_goals try (split at hr <;> cases hr; done)
      · rename_i u
        cases hop
        have := (unsub_claims_run c sched (by omega) hf' hp' s k hk).2 u.subscriptionId.val (by rw [hu]; simp [unsubOf])
        rw [answered_unsub hb hN this]
        exact ⟨_, List.mem_singleton.2 rfl, by simp [replyTo, hr]⟩
    · intro s k m rest op hk hu hop kd r hK hr
      simp only [decide_eq_true_eq] at hK; subst hK
      cases m <;> simp only [dealerCall, reduceCtorEq] at hop <;> cases hr

theorem wait_unreg_run (sched : List Act) : sched.length ≤ 2 ^ 53 → Serializes c sched → GoodClients c sched →
    PoliteUnregisters c sched → Waiting c (· = .unregister) (run c sched) := by
  induction sched using snoc_induction with
  | nil => intro _ _ _ _ s k kd r hk; cases hk
  | snoc sched a ih =>
    intro hl hs hg hp
    have h1 : sched.length + 1 ≤ 2 ^ 53 := by rw [List.length_append] at hl; exact hl
    have hb := base_run c sched (by omega)
    have hN : sched.length < 2 ^ 53 := by omega
    have hp' : PoliteUnregisters c sched := fun pre s u post e => hp pre s u (post ++ [a]) (by simp [e])
    rw [run_snoc]
    refine wait_step c (stepCase c hb hN a) (ih (by omega) (fun s m h => hs s m (List.mem_append_left _ h)) hg.init hp') ?_ ?_ ?_
    · rintro s m rfl; exact hs s m (by simp)
    · intro s k m rest op hk hu hop kd r hK hr
      simp only [decide_eq_true_eq] at hK; subst hK
      cases m <;> simp only [brokerCall, reduceCtorEq] at hop <;> simp only [requestOf] at hr
      all_goals first | (cases hr; done) | (split at hr <;> cases hr)
    · intro s k m rest op hk hu hop kd r hK hr
      simp only [decide_eq_true_eq] at hK; subst hK
      cases m <;> simp only [dealerCall, reduceCtorEq] at hop <;>
        simp only [requestOf, reduceCtorEq, Option.some.injEq, Prod.mk.injEq, false_and] at hr
      · rename_i u
        cases hop
        have := (unreg_claims_run c sched (by omega) hg.init hp' s k hk).2 u.registrationId.val (by rw [hu]; simp [unregOf])
        rw [answered_unreg hb hN this]
        exact ⟨_, List.mem_singleton.2 rfl, by simp [replyTo, hr]⟩

theorem underWay_iff {K : Kind → Bool} {k : Conn W} {kd : Kind} {r : Int} (h : (kd, r) ∈ inFlight K k.up k.down) :
    UnderWay k kd r := (mem_inFlight.1 h).2

end Wamp.Spec.Net
